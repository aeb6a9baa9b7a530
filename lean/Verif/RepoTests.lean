import Verif.Model.Construct
import Verif.Model.OpenAuth
import Verif.Model.Protocol

/-!
# The unit tests of the repository, replayed in the model

These are tests of the model, not proofs of properties: each `example` is one test function of `/repo/tests`, with its
assertions evaluated on the model.  They guard the transcription, on the inputs the authors of the library chose.
-/

open Py OpenAuth Protocol

namespace RepoTests

/-- `with pytest.raises(InvalidTag)` around a constructor. -/
def raisesInvalidTag {α : Type} : Except Err α → Bool
  | .error (.invalidTag _) => true
  | _ => false

/-- `with pytest.raises(ParseError)`; `InvalidMessage` and `InvalidTag` are subclasses (`exceptions.py:51`, `:69`). -/
def raisesParseError {α : Type} : Except Err α → Bool
  | .error (.invalidTag _) | .error (.invalidMessage _) => true
  | _ => false

/-! `tests/auth/test_open.py` -/

-- test_auth_v1
example : ownCalcPassStr cs!"12345" cs!"844308954" = .ok cs!"4294506975" := by decide +kernel

/-! `tests/items/test_camera.py` -/

-- test_camera_receive_video_message_format
example : (Msg.normal .videoDoorEntry ⟨WhatCamera.receiveVideo⟩ ⟨cs!"4000"⟩).str = cs!"*7*0*4000##" := by decide +kernel

-- test_camera_zoom_message_format
example : (Msg.generic [Who.videoDoorEntry.code, WhatCamera.zoomIn]).str = cs!"*7*120##" := by decide +kernel

-- test_camera_free_resources_message_format
example : (Msg.generic [Who.videoDoorEntry.code, WhatCamera.freeResources]).str = cs!"*7*9##" := by decide +kernel

-- test_camera_instantiation
example : Construct.new .camera (.text cs!"4000") none = .ok ⟨.videoDoorEntry, ⟨cs!"4000"⟩⟩ := by decide +kernel

/-! `tests/messages/test_ack.py` and `test_nack.py` -/

-- test_ack.py, test_nack
example : parseMessage cs!"*#*1##" = .ok .ack ∧ Msg.ack.str = cs!"*#*1##" ∧ Msg.ack.tags = [cs!"#", cs!"1"] ∧
    Msg.ack.type = .ack ∧ Msg.pyEq .ack .ack = true := by decide +kernel

-- test_nack.py, test_nack
example : parseMessage cs!"*#*0##" = .ok .nack ∧ Msg.nack.str = cs!"*#*0##" ∧ Msg.nack.tags = [cs!"#", cs!"0"] ∧
    Msg.nack.type = .nack ∧ Msg.pyEq .nack .nack = true := by decide +kernel

/-! `tests/messages/test_dimension.py` -/

-- test_dimension_request
example : let m := Msg.dimReq .gateway ⟨[]⟩ ⟨cs!"1"⟩
    parseMessage cs!"*#13**1##" = .ok m ∧ m.str = cs!"*#13**1##" ∧ Who.gateway.code = cs!"13" ∧
    m.type = .dimensionRequest := by decide +kernel

-- test_dimension_request_with_params
example : let w : Tag := ⟨cs!"7#3"⟩
    let m := Msg.dimReq .gateway w ⟨cs!"1"⟩
    parseMessage cs!"*#13*7#3*1##" = .ok m ∧ m.str = cs!"*#13*7#3*1##" ∧ w.tag = .ok cs!"7" ∧
    w.parameters = [cs!"3"] ∧ m.type = .dimensionRequest := by decide +kernel

-- test_dimension_writing
example : let m := Msg.dimWrite .gateway ⟨[]⟩ ⟨cs!"0"⟩ [⟨cs!"21"⟩, ⟨cs!"10"⟩, ⟨cs!"00"⟩, ⟨cs!"01"⟩]
    parseMessage cs!"*#13**#0*21*10*00*01##" = .ok m ∧ m.str = cs!"*#13**#0*21*10*00*01##" ∧
    m.type = .dimensionWriting := by decide +kernel

-- test_dimension_writing_with_params
example : let w : Tag := ⟨cs!"7#3"⟩
    let m := Msg.dimWrite .gateway w ⟨cs!"0"⟩ [⟨cs!"21"⟩, ⟨cs!"10"⟩, ⟨cs!"00"⟩, ⟨cs!"01"⟩]
    parseMessage cs!"*#13*7#3*#0*21*10*00*01##" = .ok m ∧ m.str = cs!"*#13*7#3*#0*21*10*00*01##" ∧
    w.tag = .ok cs!"7" ∧ w.parameters = [cs!"3"] ∧ m.type = .dimensionWriting := by decide +kernel

-- test_dimension_response
example : let m := Msg.dimResp .gateway ⟨[]⟩ ⟨cs!"1"⟩ [⟨cs!"1"⟩, ⟨cs!"1"⟩, ⟨cs!"1"⟩, ⟨cs!"2012"⟩]
    parseMessage cs!"*#13**1*1*1*1*2012##" = .ok m ∧ m.str = cs!"*#13**1*1*1*1*2012##" ∧
    m.type = .dimensionResponse := by decide +kernel

-- test_dimension_response_with_params
example : let w : Tag := ⟨cs!"7#3"⟩
    let m := Msg.dimResp .gateway w ⟨cs!"1"⟩ [⟨cs!"1"⟩, ⟨cs!"1"⟩, ⟨cs!"1"⟩, ⟨cs!"2012"⟩]
    parseMessage cs!"*#13*7#3*1*1*1*1*2012##" = .ok m ∧ m.str = cs!"*#13*7#3*1*1*1*1*2012##" ∧
    w.tag = .ok cs!"7" ∧ w.parameters = [cs!"3"] ∧ m.type = .dimensionResponse := by decide +kernel

/-! `tests/messages/test_generic.py` -/

-- test_generic
example : let m := Msg.generic [cs!"98", cs!"1"]
    parseMessage cs!"*98*1##" = .ok m ∧ m.str = cs!"*98*1##" ∧ m.tags = [cs!"98", cs!"1"] := by decide +kernel

/-! `tests/messages/test_normal.py` -/

-- test_normal
example : let m := Msg.normal .lighting ⟨cs!"1"⟩ ⟨cs!"12"⟩
    parseMessage cs!"*1*1*12##" = .ok m ∧ m.str = cs!"*1*1*12##" ∧ Who.lighting.code = cs!"1" ∧
    m.type = .normal := by decide +kernel

-- test_normal_with_params
example : let w : Tag := ⟨cs!"41#4#2"⟩
    let m := Msg.normal .automation ⟨cs!"1"⟩ w
    parseMessage cs!"*2*1*41#4#2##" = .ok m ∧ m.str = cs!"*2*1*41#4#2##" ∧ Who.automation.code = cs!"2" ∧
    w.tag = .ok cs!"41" ∧ w.parameters = [cs!"4", cs!"2"] ∧ m.type = .normal := by decide +kernel

/-! `tests/messages/test_status.py` -/

-- test_status_request
example : let m := Msg.status .lighting ⟨cs!"12"⟩
    parseMessage cs!"*#1*12##" = .ok m ∧ m.str = cs!"*#1*12##" ∧ m.type = .statusRequest := by decide +kernel

-- test_status_request_with_params
example : let w : Tag := ⟨cs!"41#4#2"⟩
    let m := Msg.status .lighting w
    parseMessage cs!"*#1*41#4#2##" = .ok m ∧ m.str = cs!"*#1*41#4#2##" ∧ w.tag = .ok cs!"41" ∧
    w.parameters = [cs!"4", cs!"2"] ∧ m.type = .statusRequest := by decide +kernel

/-! `tests/protocol/test_protocol.py` -/

-- test_connection_made
example : CState.init.step (.made 7 true) = (.ok (), ⟨some 7, .result 7, .pending⟩) := by decide +kernel

-- test_connection_lost
example : CState.init.step (.lost (some .runtimeError)) =
    (.ok (), ⟨none, .pending, .exception .runtimeError⟩) := by decide +kernel

-- test_connection_lost_no_exception
example : CState.init.step (.lost none) = (.ok (), ⟨none, .pending, .result ()⟩) := by decide +kernel

-- test_data_received (b"*#*1##")
example : dataReceived [] [0x2a, 0x23, 0x2a, 0x31, 0x23, 0x23] = (.ok (), [.ack]) ∧
    Msg.ack.bytes = .ok [0x2a, 0x23, 0x2a, 0x31, 0x23, 0x23] := by decide +kernel

-- test_data_received_invalid (b"deadbeef")
example : raisesParseError (dataReceived [] [0x64, 0x65, 0x61, 0x64, 0x62, 0x65, 0x65, 0x66]).1 = true := by
  decide +kernel

-- test_data_received_not_ascii
example : (dataReceived [] [0xff, 0xff, 0xff]).1 = .error .unicodeError := by decide +kernel

/-! `tests/protocol/test_session.py` -/

-- test_session_type_message_generation
example : (Session.command.toMessage.map Msg.str) = .ok cs!"*99*9##" ∧
    (Session.event.toMessage.map Msg.str) = .ok cs!"*99*1##" ∧
    (Session.oldCommand.toMessage.map Msg.str) = .ok cs!"*99*0##" := by decide +kernel

/-! `tests/tags/test_tag.py` -/

-- test_tag_with_params
example :
    (let t : Tag := ⟨cs!"123"⟩
     Tag.ofStr cs!"123" = .ok t ∧ t.tag = .ok cs!"123" ∧ t.parameters = [] ∧
       pyEq (.tag t) (.str cs!"123") = .ok true) ∧
    (let t : Tag := ⟨cs!"123#512#123#1#22#1213"⟩
     Tag.ofStr cs!"123#512#123#1#22#1213" = .ok t ∧ t.tag = .ok cs!"123" ∧
       t.parameters = [cs!"512", cs!"123", cs!"1", cs!"22", cs!"1213"] ∧
       pyEq (.tag t) (.str cs!"123#512#123#1#22#1213") = .ok true) ∧
    (let t : Tag := ⟨cs!"#512#123#1#22#1213"⟩
     Tag.ofStr cs!"#512#123#1#22#1213" = .ok t ∧ t.tag = .ok []) ∧
    (let t : Tag := ⟨[]⟩
     Tag.ofStr [] = .ok t ∧ t.tag = .ok [] ∧ t.parameters = [] ∧ pyEq (.tag t) (.str []) = .ok true) ∧
    raisesInvalidTag (Tag.ofStr cs!"123#512#123#-1") = true ∧
    raisesInvalidTag (Tag.ofStr cs!"123#param1#param2") = true ∧
    raisesInvalidTag (Tag.ofStr cs!"#param1#param2") = true := by decide +kernel

-- test_tag; `Tag.parameters` is the constant `None` and has no counterpart in the model
example :
    (let t : Tag := ⟨cs!"123"⟩
     Tag.ofStr cs!"123" = .ok t ∧ t.plainTag = cs!"123" ∧ pyEq (.tag t) (.str cs!"123") = .ok true) ∧
    (let t : Tag := ⟨cs!"#123"⟩
     Tag.ofStr cs!"#123" = .ok t ∧ t.plainTag = cs!"123" ∧ pyEq (.tag t) (.str cs!"#123") = .ok true) ∧
    (let t : Tag := ⟨[]⟩
     Tag.ofStr [] = .ok t ∧ t.plainTag = [] ∧ pyEq (.tag t) (.str []) = .ok true) ∧
    raisesInvalidTag (Tag.ofStr cs!"123sjkkw") = true := by decide +kernel

-- test_conversion_to_params_tag
example : Tag.withParameter ⟨cs!"123"⟩ cs!"1" = .ok ⟨cs!"123#1"⟩ ∧
    Tag.withParameter ⟨cs!"123#1"⟩ cs!"1" = .ok ⟨cs!"123#1#1"⟩ ∧
    pyEq (.tag ⟨cs!"123#1#1"⟩) (.tag ⟨cs!"123#1#1"⟩) = .ok true := by decide +kernel

/-! `tests/tags/test_who.py` -/

-- test_who_conversion
example : Who.scene.name = .ok cs!"Scene" ∧ Who.lighting.name = .ok cs!"Lighting" ∧
    Who.automation.name = .ok cs!"Automation" := by decide +kernel

-- test_parsing; `Who(-1)` is a lookup with an `int`, which equals no text
example : Who.ofStr cs!"0" = .ok .scene ∧ Who.ofStr cs!"1" = .ok .lighting ∧ Who.ofStr cs!"2" = .ok .automation ∧
    Who.ofStr cs!"invalid" = .error .valueError ∧ Who.ofStr cs!"1527627" = .error .valueError := by decide +kernel

end RepoTests
