import Verif.Model.IR

/- Decidable equality of statements (used to evaluate examples). -/

namespace Zok
variable {F Z : Type _} [DecidableEq F] [DecidableEq Z]

mutual
/-- Equality of statements is decidable. -/
def Stmt.decEq : (s t : Stmt F Z) → Decidable (s = t)
  | .block a, .block b => match Stmt.decEqL a b with
    | isTrue h => isTrue (by rw [h])
    | isFalse h => isFalse (fun e => h (by cases e; rfl))
  | .constraint a, .constraint b => if h : a = b then isTrue (by rw [h]) else isFalse (fun e => h (by cases e; rfl))
  | .directive a, .directive b => if h : a = b then isTrue (by rw [h]) else isFalse (fun e => h (by cases e; rfl))
  | .log a, .log b => if h : a = b then isTrue (by rw [h]) else isFalse (fun e => h (by cases e; rfl))
  | .block _, .constraint _ => isFalse nofun
  | .block _, .directive _ => isFalse nofun
  | .block _, .log _ => isFalse nofun
  | .constraint _, .block _ => isFalse nofun
  | .constraint _, .directive _ => isFalse nofun
  | .constraint _, .log _ => isFalse nofun
  | .directive _, .block _ => isFalse nofun
  | .directive _, .constraint _ => isFalse nofun
  | .directive _, .log _ => isFalse nofun
  | .log _, .block _ => isFalse nofun
  | .log _, .constraint _ => isFalse nofun
  | .log _, .directive _ => isFalse nofun
/-- Equality of lists of statements is decidable. -/
def Stmt.decEqL : (s t : List (Stmt F Z)) → Decidable (s = t)
  | [], [] => isTrue rfl
  | [], _ :: _ => isFalse nofun
  | _ :: _, [] => isFalse nofun
  | a :: as, b :: bs => match Stmt.decEq a b with
    | isFalse h => isFalse (fun e => h (by cases e; rfl))
    | isTrue h => match Stmt.decEqL as bs with
      | isFalse h => isFalse (fun e => h (by cases e; rfl))
      | isTrue h' => isTrue (by rw [h, h'])
end

instance : DecidableEq (Stmt F Z) := Stmt.decEq

end Zok
