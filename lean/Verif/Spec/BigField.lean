import Mathlib.NumberTheory.LucasLehmer

/-
A prime field large enough for 64-bit integers, for non-vacuity examples.
-/

namespace Zok

/-- The Mersenne prime `2^127 - 1`. -/
abbrev M127 : ℕ := 170141183460469231731687303715884105727

theorem M127_prime : Nat.Prime M127 := by
  have h : (mersenne 127).Prime := lucas_lehmer_sufficiency 127 (by norm_num) (by norm_num)
  have e : mersenne 127 = M127 := by norm_num [mersenne, M127]
  rwa [e] at h

instance : Fact (Nat.Prime M127) := ⟨M127_prime⟩

end Zok
