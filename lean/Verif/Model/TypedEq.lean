import Verif.Model.Typed

/-
Equality of types and expressions: the derived `PartialEq` of `zokrates_ast/src/typed/mod.rs`, `typed/uint.rs`, `typed/types.rs`, which ignores spans. The code also
compares what the model drops: the kind of a conditional (`if` or `?:`), and the names of struct types.
-/

namespace Zok.Abi

mutual
/-- `PartialEq` of `ConcreteType`, `typed/types.rs`. -/
def CType.same : CType → CType → Bool
  | .int, .int => true
  | .field, .field => true
  | .bool, .bool => true
  | .uint w, .uint w' => decide (w = w')
  | .array n t, .array n' t' => decide (n = n') && t.same t'
  | .struct ms, .struct ms' => sameM ms ms'
  | .tuple ts, .tuple ts' => sameL ts ts'
  | _, _ => false
/-- For lists of types. -/
def sameL : List CType → List CType → Bool
  | [], [] => true
  | t :: ts, t' :: ts' => t.same t' && sameL ts ts'
  | _, _ => false
/-- For lists of members. -/
def sameM : List (Str × CType) → List (Str × CType) → Bool
  | [], [] => true
  | (m, t) :: ts, (m', t') :: ts' => decide (m = m') && t.same t' && sameM ts ts'
  | _, _ => false
end

mutual
theorem same_iff : ∀ a b : CType, a.same b = true ↔ a = b
  | .int, b => by cases b <;> simp [CType.same]
  | .field, b => by cases b <;> simp [CType.same]
  | .bool, b => by cases b <;> simp [CType.same]
  | .uint w, b => by cases b <;> simp [CType.same]
  | .array n t, b => by cases b <;> simp [CType.same, same_iff t]
  | .struct ms, b => by cases b <;> simp [CType.same, sameM_iff ms]
  | .tuple ts, b => by cases b <;> simp [CType.same, sameL_iff ts]
theorem sameL_iff : ∀ a b : List CType, sameL a b = true ↔ a = b
  | [], b => by cases b <;> simp [sameL]
  | t :: ts, b => by cases b <;> simp [sameL, same_iff t, sameL_iff ts]
theorem sameM_iff : ∀ a b : List (Str × CType), sameM a b = true ↔ a = b
  | [], b => by cases b <;> simp [sameM]
  | (m, t) :: ts, b => by
    cases b with
    | nil => simp [sameM]
    | cons x b => cases x; simp [sameM, same_iff t, sameM_iff ts, and_assoc]
end

instance : DecidableEq CType := fun a b => decidable_of_iff _ (same_iff a b)

end Zok.Abi

namespace Zok.Typed
open Abi
variable {F : Type} [DecidableEq F]

mutual
/-- `PartialEq` of `TypedExpression`. -/
def TExpr.same : TExpr F → TExpr F → Bool
  | .fval a, .fval b => decide (a = b)
  | .bval a, .bval b => decide (a = b)
  | .uval w a, .uval w' b => decide (w = w') && decide (a = b)
  | .ident x t, .ident y t' => decide (x = y) && decide (t = t')
  | .fbin o l r, .fbin o' l' r' => decide (o = o') && l.same l' && r.same r'
  | .fubin o l r, .fubin o' l' r' => decide (o = o') && l.same l' && r.same r'
  | .fneg a, .fneg b => a.same b
  | .fpos a, .fpos b => a.same b
  | .ubin w o l r, .ubin w' o' l' r' => decide (w = w') && decide (o = o') && l.same l' && r.same r'
  | .unot w a, .unot w' b => decide (w = w') && a.same b
  | .uneg w a, .uneg w' b => decide (w = w') && a.same b
  | .upos w a, .upos w' b => decide (w = w') && a.same b
  | .bbin o l r, .bbin o' l' r' => decide (o = o') && l.same l' && r.same r'
  | .bnot a, .bnot b => a.same b
  | .fcmp o l r, .fcmp o' l' r' => decide (o = o') && l.same l' && r.same r'
  | .ucmp o l r, .ucmp o' l' r' => decide (o = o') && l.same l' && r.same r'
  | .eq l r, .eq l' r' => l.same l' && r.same r'
  | .cond t c a b, .cond t' c' a' b' => decide (t = t') && c.same c' && a.same a' && b.same b'
  | .select t a i, .select t' a' i' => decide (t = t') && a.same a' && i.same i'
  | .member t a m, .member t' a' m' => decide (t = t') && a.same a' && decide (m = m')
  | .element t a i, .element t' a' i' => decide (t = t') && a.same a' && decide (i = i')
  | .array t n es, .array t' n' es' => decide (t = t') && decide (n = n') && sameES es es'
  | .slice t n a l h, .slice t' n' a' l' h' => decide (t = t') && decide (n = n') && a.same a' && l.same l' && h.same h'
  | .repeat_ t n e c, .repeat_ t' n' e' c' => decide (t = t') && decide (n = n') && e.same e' && c.same c'
  | .struct ms es, .struct ms' es' => decide (ms = ms') && sameEL es es'
  | .tuple ts es, .tuple ts' es' => decide (ts = ts') && sameEL es es'
  | .removed t, .removed t' => decide (t = t')
  | _, _ => false
/-- For lists of expressions. -/
def sameEL : List (TExpr F) → List (TExpr F) → Bool
  | [], [] => true
  | e :: es, e' :: es' => e.same e' && sameEL es es'
  | _, _ => false
/-- For the elements of arrays. -/
def sameES : List (TSpread F) → List (TSpread F) → Bool
  | [], [] => true
  | .expr e :: es, .expr e' :: es' => e.same e' && sameES es es'
  | .spread e :: es, .spread e' :: es' => e.same e' && sameES es es'
  | _, _ => false
end

mutual
theorem sameE_iff : ∀ a b : TExpr F, a.same b = true ↔ a = b
  | .fval a, b => by cases b <;> simp [TExpr.same]
  | .bval a, b => by cases b <;> simp [TExpr.same]
  | .uval w a, b => by cases b <;> simp [TExpr.same]
  | .ident x t, b => by cases b <;> simp [TExpr.same]
  | .fbin o l r, b => by cases b <;> simp [TExpr.same, sameE_iff l, sameE_iff r, and_assoc]
  | .fubin o l r, b => by cases b <;> simp [TExpr.same, sameE_iff l, sameE_iff r, and_assoc]
  | .fneg a, b => by cases b <;> simp [TExpr.same, sameE_iff a]
  | .fpos a, b => by cases b <;> simp [TExpr.same, sameE_iff a]
  | .ubin w o l r, b => by cases b <;> simp [TExpr.same, sameE_iff l, sameE_iff r, and_assoc]
  | .unot w a, b => by cases b <;> simp [TExpr.same, sameE_iff a]
  | .uneg w a, b => by cases b <;> simp [TExpr.same, sameE_iff a]
  | .upos w a, b => by cases b <;> simp [TExpr.same, sameE_iff a]
  | .bbin o l r, b => by cases b <;> simp [TExpr.same, sameE_iff l, sameE_iff r, and_assoc]
  | .bnot a, b => by cases b <;> simp [TExpr.same, sameE_iff a]
  | .fcmp o l r, b => by cases b <;> simp [TExpr.same, sameE_iff l, sameE_iff r, and_assoc]
  | .ucmp o l r, b => by cases b <;> simp [TExpr.same, sameE_iff l, sameE_iff r, and_assoc]
  | .eq l r, b => by cases b <;> simp [TExpr.same, sameE_iff l, sameE_iff r]
  | .cond t c x y, b => by cases b <;> simp [TExpr.same, sameE_iff c, sameE_iff x, sameE_iff y, and_assoc]
  | .select t a i, b => by cases b <;> simp [TExpr.same, sameE_iff a, sameE_iff i, and_assoc]
  | .member t a m, b => by cases b <;> simp [TExpr.same, sameE_iff a, and_assoc]
  | .element t a i, b => by cases b <;> simp [TExpr.same, sameE_iff a, and_assoc]
  | .array t n es, b => by cases b <;> simp [TExpr.same, sameES_iff es, and_assoc]
  | .slice t n a l h, b => by cases b <;> simp [TExpr.same, sameE_iff a, sameE_iff l, sameE_iff h, and_assoc]
  | .repeat_ t n e c, b => by cases b <;> simp [TExpr.same, sameE_iff e, sameE_iff c, and_assoc]
  | .struct ms es, b => by cases b <;> simp [TExpr.same, sameEL_iff es]
  | .tuple ts es, b => by cases b <;> simp [TExpr.same, sameEL_iff es]
  | .removed t, b => by cases b <;> simp [TExpr.same]
theorem sameEL_iff : ∀ a b : List (TExpr F), sameEL a b = true ↔ a = b
  | [], b => by cases b <;> simp [sameEL]
  | e :: es, b => by cases b <;> simp [sameEL, sameE_iff e, sameEL_iff es]
theorem sameES_iff : ∀ a b : List (TSpread F), sameES a b = true ↔ a = b
  | [], b => by cases b <;> simp [sameES]
  | .expr e :: es, b => by
    cases b with
    | nil => simp [sameES]
    | cons x b => cases x <;> simp [sameES, sameE_iff e, sameES_iff es]
  | .spread e :: es, b => by
    cases b with
    | nil => simp [sameES]
    | cons x b => cases x <;> simp [sameES, sameE_iff e, sameES_iff es]
end

instance : DecidableEq (TExpr F) := fun a b => decidable_of_iff _ (sameE_iff a b)

end Zok.Typed
