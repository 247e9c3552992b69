import Verif.Model.Sharing

/-! Specification for the lists that are handed out: histories, told without cells. -/

namespace Brel.Spec

variable {Obj : Type}

/-- The calls of a history, in order. -/
def callsOf : List (UserStep Obj) → List (ListCall Obj)
  | [] => []
  | .call c :: h => c :: callsOf h
  | .change _ _ :: h => callsOf h

/-- The calls that return a list the filing goes on using. -/
inductive KeptBy (ob : Objects Obj) : ListCall Obj → Slot Obj → Prop
  | components : KeptBy ob .allComponents .components
  | errors : KeptBy ob .allErrors .errors
  | aspects (f : Obj) : KeptBy ob (.aspectsOf f) (.aspects f)
  | roots (n : Obj) : KeptBy ob (.rootsOf n) (.roots n)
  | children (n : Obj) : ob.calculationNode n = false → KeptBy ob (.childrenOf n) (.children n)
  | labels (e : Obj) : KeptBy ob (.labelsOf e) (.labels e)
  | numerators (u : Obj) : KeptBy ob (.numeratorsOf u) (.numerators u)
  | denominators (u : Obj) : KeptBy ob (.denominatorsOf u) (.denominators u)

/-- In the history `h`, the `i`-th list is changed after it was got from a call that keeps `l`. -/
def Writes (ob : Objects Obj) (before : List (UserStep Obj)) (i : Nat) (l : Slot Obj) : Prop :=
  ∃ c, (callsOf before)[i]? = some c ∧ KeptBy ob c l

/-- No step of `h`, which comes after `before`, changes the list `l` of the filing. -/
def LeavesAlone (ob : Objects Obj) (before h : List (UserStep Obj)) (l : Slot Obj) : Prop :=
  ∀ h1 i x h2, h = h1 ++ .change i x :: h2 → ¬ Writes ob (before ++ h1) i l

/-- A session as it is after the filing was opened: nothing is handed out, and lists of different objects are different lists. -/
structure Fresh (s : Session Obj) : Prop where
  got : s.got = []
  distinct : ∀ l l', s.cell l = s.cell l' → l = l'

end Brel.Spec
