import Verif.Props.Float16
import Verif.Props.Float32

/-! # C18, C22: which datapoints are numbers -/

namespace Knx

/-- C18, C22: only the types that are numbers have `decode`; for the others there is no such attribute. -/
theorem c18_absent (d : Dpt) (e : Err) :
    d.decode = .error e ↔ Spec.isFloat16 d.cls = false ∧ Spec.isFloat32 d.cls = false ∧ e = .attributeError := by
  rw [← Bool.not_eq_true, ← Bool.not_eq_true, kind_float16, kind_float32, Dpt.decode]
  cases d.cls.kind <;> simp [eq_comm (a := e)]

example : (⟨.switch, 1⟩ : Dpt).decode = .error .attributeError := (c18_absent _ _).2 ⟨rfl, rfl, rfl⟩

end Knx
