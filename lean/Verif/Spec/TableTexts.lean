import Verif.Model.Tables

/-! # Specification: what the text of a table shows

Written without the functions that make the texts. -/

namespace Knx.Spec

/-- The name of an ASAP; an empty one is none. -/
def shownName (a : Asap) : Option String := a.name.filter fun n => n ≠ ""

/-- An ASAP whose name, if it has one, is on one line. -/
def OneLine (a : Asap) : Prop := ∀ n, a.name = some n → '\n' ∉ n.toList

/-- What a line shows. -/
def shownEntry (grp : Addr → Bool) (p : Asap × List Addr) : Int × Option String × List (Bool × BitVec 16) :=
  (p.1.value, shownName p.1, p.2.map fun a => (grp a, a.fs))

end Knx.Spec
