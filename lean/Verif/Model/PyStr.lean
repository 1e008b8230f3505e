import Mathlib.Tactic.NormNum

/-!
# Python strings

`str.lower()` as used by `/repo/src/momlevel/util.py:241` (`eos_func_from_str`).  Only the ASCII
letters and U+212A (KELVIN SIGN, the one non-ASCII code point that lowers to an ASCII letter by
itself) are mapped; every other code point lowers to something that is not an ASCII letter, so for
comparisons with ASCII names leaving it unchanged is equivalent.
-/

namespace Momlevel

/-- `str.lower()` on one character (see the file header). -/
def pyLowerChar (c : Char) : Char :=
  if 65 ≤ c.toNat ∧ c.toNat ≤ 90 then Char.ofNat (c.toNat + 32)
  else if c.toNat = 0x212A then 'k'
  else c

/-- `s.lower()`, as a list of characters. -/
def pyLower (s : String) : List Char := s.toList.map pyLowerChar

theorem char_toNat_inj {c d : Char} (h : c.toNat = d.toNat) : c = d := by
  rw [← Char.ofNat_toNat c, ← Char.ofNat_toNat d, h]

theorem toNat_ofNat_small {n : Nat} (h : n < 0xd800) : (Char.ofNat n).toNat = n := by
  unfold Char.ofNat
  rw [dif_pos (Or.inl h)]
  rfl

/-- A character lowers to the ASCII letter `d` (not `k`) iff it is `d` or its capital. -/
theorem pyLowerChar_eq_iff {c d : Char} (h1 : 97 ≤ d.toNat) (h2 : d.toNat ≤ 122)
    (h3 : d ≠ 'k') : pyLowerChar c = d ↔ c = d ∨ c.toNat + 32 = d.toNat := by
  unfold pyLowerChar
  split
  · rename_i h
    constructor
    · intro e
      right
      rw [← e, toNat_ofNat_small (by omega)]
    · rintro (rfl | e)
      · omega
      · apply char_toNat_inj
        rw [toNat_ofNat_small (by omega), e]
  · rename_i h
    split
    · rename_i hk
      constructor
      · intro e; exact absurd e.symm h3
      · rintro (rfl | e) <;> omega
    · constructor
      · intro e; exact Or.inl e
      · rintro (e | e)
        · exact e
        · omega

end Momlevel
