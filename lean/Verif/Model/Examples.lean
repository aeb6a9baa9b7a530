import Verif.Model.Construct
import Verif.Model.Queries

/-!
# The example programs (`/repo/examples`)

Each program is its coroutine `run`.  Its result is what it prints, how it ends, and the world it leaves behind.

Simplifications.
* `asyncio.sleep` does nothing: what arrives meanwhile is in the inbox already.
* A printed line is the values it shows; lines of fixed text are left out, and so are log records, except where logging is
  all the program does with a value.
* `main` (logging, the command line) is not modelled.
-/

open Py

namespace Examples

/-- A line that shows values.  The f-strings of `examples/*/main.py`. -/
inductive Line where
  /-- `The ip address of the server is {ip[0]}.{ip[1]}.{ip[2]}.{ip[3]}` -/
  | address (a b c d : Str)
  /-- `print(ip)` -/
  | ip (n : Nat)
  /-- `print(model.name)` -/
  | model (m : GatewayModel)
  /-- `print(datetime)` -/
  | datetime (t : DateTime)
  /-- `print(kernel)` -/
  | version (s : Str)
  /-- `Light {where} status: ON` -/
  | light (wher : Str) (on : Bool)
  /-- `Active power: {power}` -/
  | power (p : PyFloat)
  /-- `Month: {month}, Day: {day}, Number of the measure: {tag}, Value: {value}` -/
  | measure (month day tag value : Str)
  deriving DecidableEq

/-- `await x`, and the rest with its result.  As in `examples/light_01/main.py`. -/
def await {α : Type} (x : M α) (k : α → Gen Line) : Gen Line := fun w =>
  match x w with
  | (.ok a, w') => k a w'
  | (.error e, w') => (([], .error e), w')

/-- `print(line)`, and the rest.  As in `examples/gateway_01/main.py:22`. -/
def print (l : Line) (k : Gen Line) : Gen Line := fun w =>
  let r := k w
  ((l :: r.1.1, r.1.2), r.2)

/-- `async for x in g: print(f(x))`, and the rest.  As in `examples/light_01/main.py:20-21`. -/
def forEach {γ : Type} (g : Gen γ) (f : γ → Line) (k : Gen Line) : Gen Line := fun w =>
  match g w with
  | ((xs, .error e), w') => ((xs.map f, .error e), w')
  | ((xs, .ok ()), w') =>
    let r := k w'
    ((xs.map f ++ r.1.1, r.1.2), r.2)

/-- `await client.close()` at the end of a program.  As in `examples/light_01/main.py`. -/
def finish : Gen Line := await Client.close fun _ w => (([], .ok ()), w)

/-- The commands of a program, one after the other.  As in `examples/light_01/main.py`. -/
def perform : List (M Unit) → M Unit
  | [] => return ()
  | c :: cs => do
    c
    perform cs

/-- A program that connects, sends commands and closes the connection.  As in `examples/light_01/main.py`. -/
def script (cfg : Config) (cmds : List (M Unit)) : M Unit := do
  Client.start cfg
  perform cmds
  Client.close

/-- Questions, one after the other, each answer printed; then the connection is closed.
As in `examples/gateway_01/main.py`. -/
def tell : List (M Line) → Gen Line
  | [] => finish
  | g :: gs => await g fun l => print l (tell gs)

/-- A program that connects, asks questions, prints the answers and closes the connection.
As in `examples/gateway_01/main.py`. -/
def report (cfg : Config) (gs : List (M Line)) : Gen Line := await (Client.start cfg) fun _ => tell gs

/-- `automation_01/main.py:8-26`.  `Automation(client, "15")` cannot fail. -/
def automation01 (cfg : Config) : M Unit :=
  let shutter : Item := ⟨.automation, ⟨cs!"15"⟩⟩
  script cfg [Automation.up cfg shutter, Automation.stop cfg shutter, Automation.down cfg shutter, Automation.stop cfg shutter]

/-- `camera_01/main.py:8-40`. -/
def camera01 (cfg : Config) : M Unit :=
  let camera : Item := ⟨.videoDoorEntry, ⟨cs!"4000"⟩⟩
  script cfg [Camera.receiveVideo cfg camera, Camera.zoomIn cfg camera, Camera.increaseLuminosity cfg camera,
    Camera.increaseContrast cfg camera, Camera.displayDial cfg camera 1 1, Camera.freeResources cfg camera]

/-- `light_01/main.py:8-23`. -/
def light01 (cfg : Config) : Gen Line :=
  let light : Item := ⟨.lighting, ⟨cs!"32"⟩⟩
  await (Client.start cfg) fun _ => await (BaseLight.turnOn1Min cfg light) fun _ =>
    forEach (Light.getStatus cfg light) (fun p => .light p.1.string p.2) finish

/-- `energy_management_01/main.py:8-26`. -/
def energyManagement01 (cfg : Config) : Gen Line :=
  await (Client.start cfg) fun _ => await (M.lift (Construct.new .energyManagement (.text cs!"51") none)) fun f520 =>
    await (EnergyManagement.getActivePower cfg f520) fun p => print (.power p) finish

/-- `gateway_01/main.py:8-36`. -/
def gateway01 (cfg : Config) : Gen Line :=
  await (Client.start cfg) fun _ =>
    await (Gateway.getIp cfg none) fun ip => print (.ip ip) <|
    await (Gateway.getModel cfg none) fun m => print (.model m) <|
    await (Gateway.getDateTime cfg none) fun t => print (.datetime t) <|
    await (Gateway.getKernelVersion cfg none) fun v => print (.version v) finish

/-- `try: x except asyncio.TimeoutError`: the result, or nothing.  As in `examples/custom_message_01/main.py:21-29`. -/
def orTimeout {α : Type} (x : M α) : M (Option α) := fun w =>
  match x w with
  | (.ok a, w') => (.ok (some a), w')
  | (.error .timeoutError, w') => (.ok none, w')
  | (.error e, w') => (.error e, w')

/-- `ip = resp.tags[-4:]` and the line with `ip[0]` to `ip[3]` (`custom_message_01/main.py:33-34`). -/
def lastFour (ts : List Str) : Except Err Line := do
  let ip := ts.drop (ts.length - 4)
  return .address (← index ip 0) (← index ip 1) (← index ip 2) (← index ip 3)

/-- `custom_message_01/main.py:9-38`. -/
def customMessage01 (cfg : Config) : Gen Line :=
  await (Client.start cfg) fun _ =>
    await (Client.sendMessage cfg (.dimReq .gateway ⟨[]⟩ ⟨cs!"10"⟩) false) fun _ =>
    await (orTimeout Client.readMessage) fun resp =>
      match resp with
      | none => finish
      | some resp =>
        if resp.pyEq .nack then finish
        else
          await (orTimeout Client.readMessage) fun status =>
            match status with
            | none => finish
            | some status =>
              if status.pyEq .ack then await (M.lift (lastFour resp.tags)) fun l => print l finish
              else finish

/-- What is done with one response (`custom_message_02/main.py:34-41`). -/
def measureOf (d : Tag) (vs : List Tag) : Except Err Line := do
  let month ← index d.parameters 0
  let day ← index d.parameters 1
  let tag ← index vs 0
  let v ← index vs 1
  return .measure month day tag.string v.string

/-- A message read was in the inbox. -/
theorem read_shrinks {w w' : World} {m : Msg} (h : Client.readMessage w = (.ok m, w')) :
    w'.inbox.length < w.inbox.length := by
  unfold Client.readMessage at h
  split at h
  · cases h
  · split at h
    · cases h
    · cases h
    · rename_i hi
      cases h
      simp [hi]

/-- The loop (`custom_message_02/main.py:20-41`): an ACK or a timeout ends it. -/
def measures (w : World) : (List Line × Except Err Unit) × World :=
  match h : Client.readMessage w with
  | (.error e, w') => if e = .timeoutError then (([], .ok ()), w') else (([], .error e), w')
  | (.ok m, w') =>
    match m with
    | .ack => (([], .ok ()), w')
    | .dimResp _ _ d vs =>
      match measureOf d vs with
      | .error e => (([], .error e), w')
      | .ok l =>
        let r := measures w'
        ((l :: r.1.1, r.1.2), r.2)
    | _ => measures w'
termination_by w.inbox.length
decreasing_by all_goals exact read_shrinks h

/-- `custom_message_02/main.py:9-43`. -/
def customMessage02 (cfg : Config) : Gen Line :=
  await (Client.start cfg) fun _ =>
    await (Client.sendMessage cfg (.dimReq .energyManagement ⟨cs!"52"⟩ ⟨cs!"511#10#7"⟩) false) fun _ =>
    forEach measures id finish

end Examples
