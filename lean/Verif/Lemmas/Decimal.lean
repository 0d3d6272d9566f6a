import Verif.Rust.Str
import Verif.Spec.Ktxstats

/-! Decimal notation. -/

namespace Mvd
open Spec

theorem digitChar_toNat {n : Nat} (h : n < 10) : (Nat.digitChar n).toNat = '0'.toNat + n := by
  have : ∀ k : Fin 10, (Nat.digitChar k).toNat = '0'.toNat + k := by decide
  exact this ⟨n, h⟩

theorem digitChar_of_toNat {c : Char} (h : '0'.toNat ≤ c.toNat) (h' : c.toNat ≤ '9'.toNat) :
    Nat.digitChar (c.toNat - '0'.toNat) = c := by
  have h9 : '9'.toNat = '0'.toNat + 9 := rfl
  apply Char.toNat_inj.mp
  rw [digitChar_toNat (by omega)]
  omega

theorem digitsValue_append (s : List Char) (c : Char) :
    digitsValue (s ++ [c]) = digitsValue s * 10 + (c.toNat - '0'.toNat) := by simp [digitsValue]

theorem showNat_eq (n : Nat) : showNat n = if n < 10 then [Nat.digitChar n] else showNat (n / 10) ++ [Nat.digitChar (n % 10)] := by
  unfold showNat
  rw [Nat.toDigits_eq_if (by omega)]

theorem digit_zero {c : Char} (h : '0'.toNat ≤ c.toNat) (h0 : c.toNat - '0'.toNat = 0) : c = '0' :=
  Char.toNat_inj.mp (by omega)

theorem showNat_decimal (n : Nat) : Decimal n (showNat n) := by
  induction n using Nat.strongRecOn with
  | _ n ih =>
    rw [showNat_eq]
    have h9 : '9'.toNat = '0'.toNat + 9 := rfl
    by_cases h : n < 10
    · rw [if_pos h]
      have hd := digitChar_toNat h
      refine ⟨by simp, ?_, ?_, ?_⟩
      · intro c hc
        simp only [List.mem_singleton] at hc
        subst hc
        omega
      · have : digitsValue [Nat.digitChar n] = 0 * 10 + ((Nat.digitChar n).toNat - '0'.toNat) := rfl
        rw [this]; omega
      · simp
    · rw [if_neg h]
      have hd := digitChar_toNat (show n % 10 < 10 by omega)
      obtain ⟨i1, i2, i3, i4⟩ := ih (n / 10) (by omega)
      refine ⟨by simp, ?_, ?_, ?_⟩
      · intro c hc
        rcases List.mem_append.mp hc with hc | hc
        · exact i2 c hc
        · simp only [List.mem_singleton] at hc
          subst hc
          omega
      · rw [digitsValue_append, i3]; omega
      · intro hh
        have h0 : (showNat (n / 10)).head? = some '0' := by
          cases hs : showNat (n / 10) with
          | nil => exact absurd hs i1
          | cons a t => rw [hs] at hh; simpa using hh
        have := i4 h0
        rw [this] at i3
        have e : digitsValue ['0'] = 0 := rfl
        omega

theorem decimal_eq : ∀ (k : Nat) (n : Nat) (s : List Char), s.length ≤ k → Decimal n s → s = showNat n := by
  have h9 : '9'.toNat = '0'.toNat + 9 := rfl
  intro k
  induction k with
  | zero =>
    intro n s hk h
    exact absurd (List.length_eq_zero_iff.mp (by omega)) h.1
  | succ k ih =>
    intro n s hk h
    obtain ⟨h1, h2, h3, h4⟩ := h
    obtain ⟨t, c, rfl⟩ : ∃ t c, s = t ++ [c] := ⟨s.dropLast, s.getLast h1, (List.dropLast_concat_getLast h1).symm⟩
    have hc := h2 c (by simp)
    rw [digitsValue_append] at h3
    rw [showNat_eq]
    by_cases ht : t = []
    · subst ht
      have e : digitsValue [] = 0 := rfl
      rw [if_pos (by omega), show n = c.toNat - '0'.toNat by omega, digitChar_of_toNat hc.1 hc.2]
      rfl
    · have hdec : Decimal (digitsValue t) t := by
        refine ⟨ht, fun x hx => h2 x (List.mem_append_left _ hx), rfl, fun hh => ?_⟩
        exfalso
        have : (t ++ [c]).head? = some '0' := by
          cases t with
          | nil => exact absurd rfl ht
          | cons a t => simpa using hh
        have := congrArg List.length (h4 this)
        simp at this
        exact ht this
      have hpos : 0 < digitsValue t := by
        refine Nat.pos_of_ne_zero fun h0 => ?_
        have e := ih _ t (by simp at hk; omega) hdec
        rw [h0] at e
        have e' : showNat 0 = ['0'] := rfl
        rw [e'] at e
        subst e
        have := congrArg List.length (h4 rfl)
        simp at this
      rw [if_neg (by omega), show n / 10 = digitsValue t by omega, show n % 10 = c.toNat - '0'.toNat by omega,
        digitChar_of_toNat hc.1 hc.2, ← ih _ t (by simp at hk; omega) hdec]

end Mvd
