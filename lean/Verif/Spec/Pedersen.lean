import Verif.Lemmas.BabyJubJub
import Mathlib.Algebra.BigOperators.Group.Finset.Basic

/-
The Pedersen hash of 512 bits (the hash of pycrypto's `PedersenHasher` and of Sapling) on Baby Jubjub.
-/

namespace Zok.Pedersen

/-- Three bits as a signed digit in -4, ..., -1, 1, ..., 4. -/
def digit (b0 b1 b2 : Bool) : ℤ := (if b2 then -1 else 1) * (1 + b0.toNat + 2 * b1.toNat)

/-- The digit `k` of a message, which is padded with zeros. -/
def chunk (m : List Bool) (k : ℕ) : ℤ := digit (m.getD (3 * k) false) (m.getD (3 * k + 1) false) (m.getD (3 * k + 2) false)

/-- The scalar of a segment: the sum of `n` digits from the digit `62 * s` on, with the weights 1, 16, 16 ^ 2, ... -/
def scalar (m : List Bool) (s n : ℕ) : ℤ := ∑ i ∈ Finset.range n, chunk m (62 * s + i) * 16 ^ i

/-- The hash of 512 bits: 171 digits in three segments, each with its own base point. -/
def hash {G : Type} [AddCommGroup G] (B : ℕ → G) (m : List Bool) : G := scalar m 0 62 • B 0 + scalar m 1 62 • B 1 + scalar m 2 47 • B 2

/-- A point of Baby Jubjub from its coordinates. -/
def point (u v : ℕ) (h : (168700 * u ^ 2 + v ^ 2) % Bn128 = (1 + 168696 * u ^ 2 * v ^ 2) % Bn128) : babyJubJubCurve.Pt where
  u := (u : ZMod Bn128)
  v := (v : ZMod Bn128)
  on := by
    have h : ((168700 * u ^ 2 + v ^ 2 : ℕ) : ZMod Bn128) = ((1 + 168696 * u ^ 2 * v ^ 2 : ℕ) : ZMod Bn128) := (ZMod.natCast_eq_natCast_iff _ _ _).2 h
    simp only [Nat.cast_add, Nat.cast_mul, Nat.cast_pow, Nat.cast_one, Nat.cast_ofNat] at h
    exact h

/-- The base points of `hashes/pedersen/512bitBool`: the first entries of the tables of the rounds 0, 62 and 124. -/
def base : ℕ → babyJubJubCurve.Pt
  | 0 => point 13418723823902222986275588345615650707197303761863176429873001977640541977977 15255921313433251341520743036334816584226787412845488772781699434149539664639 (by decide +kernel)
  | 1 => point 11749872627669176692285695179399857264465143297451429569602068921530882657945 2495745987765795949478491016197984302943511277003077751830848242972604164102 (by decide +kernel)
  | _ => point 11201877561392804928547433284377926158320532448010089457664943460838007583898 17554707027223374526818340909253875671094356182527312776837442099008513816809 (by decide +kernel)

end Zok.Pedersen
