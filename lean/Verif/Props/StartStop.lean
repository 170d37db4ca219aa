import Verif.Props.Tunnelling
import Verif.Props.UsbClient

/-! # C44, C66: how a KNXnet/IP state starts and how the USB client stops -/

namespace Knx
open Spec

/-- C44: a new state has channel 0, and after any history of encoding, decoding and assignments to the counters it has the
channel of the last successful connect response, or 0 if there was none or a successful disconnect response came after it. -/
theorem c44_start (a : Option AssocTable) (g : Option GroupObjectTable) (cs : List Call) :
    (afterAll (State.initIp .knxnetIp a g) cs).chan = cs.foldl channelAfter (some 0) := c44_channel rfl cs

example : (afterAll (State.initIp .knxnetIp none none) [.decode [6, 0x10, 2, 6, 0, 20, 78, 0x24, 8, 1, 0, 0, 0, 0, 0, 0],
    .setLocal 5, .encode (.tunnelingAck 1 .noError)]).chan = some 0 := by
  rw [c44_start]
  decide

/-- C66: the client that has written its last message stops: whatever happens afterwards, it writes and logs nothing more. -/
theorem c66_stops {c : UsbClient} (hw : c.writing = true) (es : List UsbClient.Event) :
    (UsbClient.run c (.finish :: es)).written = c.written ∧ (UsbClient.run c (.finish :: es)).seen = c.seen ∧
    (UsbClient.run c (.finish :: es)).reading = false := by
  have hf : UsbClient.step c .finish = { c with reading := false, writing := false } := if_pos hw
  have h1 := run_dead (c := UsbClient.step c .finish) (by rw [hf]) es
  have h2 := run_mute (c := UsbClient.step c .finish) (by rw [hf]) es
  exact ⟨h2.2.1.trans (by rw [hf]), h1.2.trans (by rw [hf]), h1.1⟩

example (text : List Char) : (UsbClient.run exUsb [.finish, .received text, .write (.groupRead ⟨7, none⟩)]).written = [] ∧
    (UsbClient.run exUsb [.finish, .received text, .write (.groupRead ⟨7, none⟩)]).seen = [] :=
  ⟨(c66_stops (c := exUsb) rfl _).1, (c66_stops (c := exUsb) rfl _).2.1⟩

end Knx
