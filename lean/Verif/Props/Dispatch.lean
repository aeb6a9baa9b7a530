import Verif.Props.Events
import Verif.Proofs.Dispatch

/-!
# Further properties of the event client (C76, C79)
-/

open Py Spec Events

/-- C76 is false of events: after a packet that cannot be parsed every history goes on exactly as if none of the later packets
had been sent. -/
theorem C76_events_refuted (py : Python) (call : Call) (session : Session) (client : Nat) (h h' : List Step)
    (d : List UInt8) (e : Err) (hd : Protocol.packetMessages d = .error e) :
    after py call session client (h ++ .packet d :: h') =
      after py call session client (h ++ .packet d :: h'.filter fun st => !st.isPacket) := by
  rw [after_append, after_append]
  change ((after py call session client h).step py call (.packet d)).run py call h' =
    ((after py call session client h).step py call (.packet d)).run py call (h'.filter _)
  refine run_down py call _ ?_ h'
  generalize after py call session client h = s
  unfold State.step Protocol.dataReceived; dsimp only
  rw [hd]
  split_ifs with ho
  · exact fun hc => nomatch hc
  · exact ho

/-- The hypothesis is met; the second light event is lost, which it is not without the bad packet. -/
example : (∃ e, Protocol.packetMessages (bytes "garbage##") = .error e) ∧
    (after .upTo312 allStart .event 0 [.register .light .onStatusChange 8, .loop, .packet (bytes "*1*1*11##"),
      .packet (bytes "garbage##"), .packet (bytes "*1*0*11##"), .resume]).trace.length = 1 ∧
    (after .upTo312 allStart .event 0 [.register .light .onStatusChange 8, .loop, .packet (bytes "*1*1*11##"),
      .packet (bytes "*1*0*11##"), .resume]).trace.length = 2 :=
  ⟨⟨.invalidMessage cs!"garbage##", by decide +kernel⟩, by decide +kernel, by decide +kernel⟩

/-- C79 (partial): if a camera event did reach the dispatcher with an item, all callbacks registered with
`Camera.on_status_change` would be called, in this order, with the item, the WHAT and the message (up to Python 3.12).
Missing: the loop makes no items for cameras. -/
theorem C79_dispatch_partial (call : Events.Call) (hc : ∀ s, call s = .ok ()) (r : Registry) (o : Obj) (what : Str)
    (hw : what = cs!"0" ∨ what = cs!"9") (wher : Tag) :
    dispatch .upTo312 call r o (.normal .videoDoorEntry ⟨what⟩ wher) =
      r.camera.map fun cb => ⟨cb, o, [.camera what, .message (.normal .videoDoorEntry ⟨what⟩ wher)]⟩ := by
  have hsnd : ∀ fs args, createTasks call fs o args = (fs.map fun cb => ⟨cb, o, args⟩, .ok ()) := by
    intro fs args
    induction fs with
    | nil => rfl
    | cons f fs ih => unfold createTasks; rw [hc, ih]; rfl
  have he : cameraCallbacks call r o (.normal .videoDoorEntry ⟨what⟩ wher) =
      (r.camera.map fun cb => ⟨cb, o, [.camera what, .message (.normal .videoDoorEntry ⟨what⟩ wher)]⟩, .ok ()) := by
    rcases hw with rfl | rfl <;> exact hsnd _ _
  change dispatchIn .upTo312 call r o (.normal .videoDoorEntry ⟨what⟩ wher) [.automation, .camera, _, _, _] = _
  have h1 : whoMatches .upTo312 (.normal .videoDoorEntry ⟨what⟩ wher) .automation = false := rfl
  have h2 : whoMatches .upTo312 (.normal .videoDoorEntry ⟨what⟩ wher) .camera = true := rfl
  rw [dispatchIn, h1, if_neg Bool.false_ne_true, dispatchIn, h2, if_pos rfl]
  change (match cameraCallbacks call r o _ with | (ts, .error _) => _ | (ts, .ok ()) => ts) = _
  rw [he]

/-- The hypothesis is met: two callbacks. -/
example (o : Obj) : dispatch .upTo312 allStart { Registry.init with camera := [7, 8] } o
      (.normal .videoDoorEntry ⟨cs!"0"⟩ ⟨cs!"4000"⟩) =
    [⟨7, o, [.camera cs!"0", .message (.normal .videoDoorEntry ⟨cs!"0"⟩ ⟨cs!"4000"⟩)]⟩,
     ⟨8, o, [.camera cs!"0", .message (.normal .videoDoorEntry ⟨cs!"0"⟩ ⟨cs!"4000"⟩)]⟩] :=
  C79_dispatch_partial allStart (fun _ => rfl) _ o _ (.inl rfl) _
