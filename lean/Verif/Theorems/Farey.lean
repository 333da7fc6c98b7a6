import Verif.Model.Farey
import Mathlib.Tactic.Linarith
import Mathlib.Tactic.FieldSimp
import Mathlib.Tactic.Ring
import Mathlib.Tactic.Positivity
import Mathlib.Data.Nat.Cast.Order.Field
import Mathlib.RingTheory.Coprime.Lemmas

/-!
# Theorem C20: rational approximation with bounded denominators
-/

namespace Verif.Farey

variable {K : Type} [Field K] [LinearOrder K] [IsStrictOrderedRing K]

/-- What a returned fraction satisfies: bounded positive denominator, at most one, lowest terms, Dirichlet's error bound. -/
def Good (x : K) (maxden : Nat) (p q : Nat) : Prop :=
  1 ≤ q ∧ q ≤ maxden ∧ p ≤ q ∧ Nat.Coprime p q ∧ |x - (p : K) / (q : K)| ≤ 1 / ((q : K) * ((maxden : K) + 1))

theorem coprime_of_det (a b c d : Nat) (h : b * c = a * d + 1) : Nat.Coprime a b ∧ Nat.Coprime c d := by
  constructor
  · rw [Nat.Coprime]
    have h1 : Nat.gcd a b ∣ a * d := Dvd.dvd.mul_right (Nat.gcd_dvd_left a b) d
    have h2 : Nat.gcd a b ∣ a * d + 1 := h ▸ Dvd.dvd.mul_right (Nat.gcd_dvd_right a b) c
    exact Nat.dvd_one.1 ((Nat.dvd_add_right h1).1 h2)
  · rw [Nat.Coprime]
    have h1 : Nat.gcd c d ∣ a * d := Dvd.dvd.mul_left (Nat.gcd_dvd_right c d) a
    have h2 : Nat.gcd c d ∣ a * d + 1 := h ▸ Dvd.dvd.mul_left (Nat.gcd_dvd_left c d) b
    exact Nat.dvd_one.1 ((Nat.dvd_add_right h1).1 h2)

theorem gap (a b c d : Nat) (hb : 1 ≤ b) (hd : 1 ≤ d) (h : b * c = a * d + 1) :
    (c : K) / d - (a : K) / b = 1 / ((b : K) * d) := by
  have hb' : (b : K) ≠ 0 := by exact_mod_cast Nat.pos_iff_ne_zero.1 hb
  have hd' : (d : K) ≠ 0 := by exact_mod_cast Nat.pos_iff_ne_zero.1 hd
  have h' : (b : K) * c = a * d + 1 := by exact_mod_cast h
  field_simp
  linarith

theorem one_div_le (q e m : Nat) (hq : 1 ≤ q) (he : m + 1 ≤ e) : 1 / ((q : K) * (e : K)) ≤ 1 / ((q : K) * ((m : K) + 1)) := by
  have hq' : (0 : K) < q := by exact_mod_cast hq
  have he' : (m : K) + 1 ≤ e := by exact_mod_cast he
  have hm : (0 : K) < (m : K) + 1 := by positivity
  exact one_div_le_one_div_of_le (mul_pos hq' hm) (mul_le_mul_of_nonneg_left he' (le_of_lt hq'))

theorem fareyLoop_spec (x : K) (m : Nat) (hm : 1 ≤ m) : ∀ (fuel a b c d : Nat), 1 ≤ fuel → (b ≤ m ∧ d ≤ m → 2 * m + 2 ≤ fuel + (b + d)) →
    1 ≤ b → 1 ≤ d → (b ≤ m ∨ d ≤ m) → a ≤ b → c ≤ d → b * c = a * d + 1 → (a : K) / b ≤ x → x ≤ (c : K) / d →
    ∃ p q, fareyLoop x m fuel a b c d = .ok (p, q) ∧ Good x m p q := by
  intro fuel
  induction fuel with
  | zero => intro a b c d h1 h2; omega
  | succ fuel ih =>
    intro a b c d h1 h2 hb hd hbd hab hcd hdet hax hxc
    have hg := gap (K := K) a b c d hb hd hdet
    have hb' : (0 : K) < b := by exact_mod_cast hb
    have hd' : (0 : K) < d := by exact_mod_cast hd
    obtain ⟨cop1, cop2⟩ := coprime_of_det a b c d hdet
    have hdet' : (b : K) * c = a * d + 1 := by exact_mod_cast hdet
    rw [fareyLoop]
    by_cases hw : b ≤ m ∧ d ≤ m
    · rw [if_pos hw]
      have hl1 : (b + d) * c = (a + c) * d + 1 := by rw [Nat.add_mul, Nat.add_mul, hdet, Nat.mul_comm d c]; omega
      have hl2 : b * (a + c) = a * (b + d) + 1 := by rw [Nat.mul_add, Nat.mul_add, hdet, Nat.mul_comm b a]; omega
      have g1 := gap (K := K) (a + c) (b + d) c d (by omega) hd hl1
      have g2 := gap (K := K) a b (a + c) (b + d) hb (by omega) hl2
      obtain ⟨cop3, _⟩ := coprime_of_det (a + c) (b + d) c d hl1
      by_cases he : x = ((a + c : Nat) : K) / ((b + d : Nat) : K)
      · simp only [if_pos he]
        by_cases hs : b + d ≤ m
        · rw [if_pos hs]
          refine ⟨a + c, b + d, rfl, by omega, hs, by omega, cop3, ?_⟩
          rw [← he, sub_self, abs_zero]
          positivity
        · rw [if_neg hs]
          by_cases hdb : d > b
          · rw [if_pos hdb]
            refine ⟨c, d, rfl, hd, hw.2, hcd, cop2, ?_⟩
            rw [abs_sub_comm, he, g1, abs_of_nonneg (by positivity), mul_comm]
            exact one_div_le d (b + d) m hd (by omega)
          · rw [if_neg hdb]
            refine ⟨a, b, rfl, hb, hw.1, hab, cop1, ?_⟩
            rw [he, g2, abs_of_nonneg (by positivity)]
            exact one_div_le b (b + d) m hb (by omega)
      · simp only [if_neg he]
        by_cases hgt : x > ((a + c : Nat) : K) / ((b + d : Nat) : K)
        · rw [if_pos hgt]
          exact ih (a + c) (b + d) c d (by omega) (by omega) (by omega) hd (Or.inr hw.2) (by omega) hcd hl1 (le_of_lt hgt) hxc
        · rw [if_neg hgt]
          exact ih a b (a + c) (b + d) (by omega) (by omega) hb (by omega) (Or.inl hw.1) hab (by omega) hl2 hax (not_lt.1 hgt)
    · rw [if_neg hw]
      by_cases hbm : b > m
      · rw [if_pos hbm]
        refine ⟨c, d, rfl, hd, by omega, hcd, cop2, ?_⟩
        rw [abs_sub_comm, abs_of_nonneg (by linarith)]
        calc (c : K) / d - x ≤ (c : K) / d - (a : K) / b := by linarith
          _ = 1 / ((d : K) * b) := by rw [hg, mul_comm]
          _ ≤ _ := one_div_le d b m hd hbm
      · rw [if_neg hbm]
        refine ⟨a, b, rfl, hb, by omega, hab, cop1, ?_⟩
        rw [abs_of_nonneg (by linarith)]
        calc x - (a : K) / b ≤ (c : K) / d - (a : K) / b := by linarith
          _ = 1 / ((b : K) * d) := hg
          _ ≤ _ := one_div_le b d m hb (by omega)

/-- **C20 (`farey`).** For every `x` in `[0, 1]` and every bound `maxden ≥ 1` the loop ends and returns a fraction in lowest
terms with a denominator from 1 to `maxden` whose distance to `x` is at most `1/(den (maxden + 1))`. -/
theorem C20_farey (x : K) (maxden : Nat) (hm : 1 ≤ maxden) (h0 : 0 ≤ x) (h1 : x ≤ 1) :
    ∃ p q, farey x maxden = .ok (p, q) ∧ 1 ≤ q ∧ q ≤ maxden ∧ p ≤ q ∧ Nat.Coprime p q ∧
      |x - (p : K) / (q : K)| ≤ 1 / ((q : K) * ((maxden : K) + 1)) := by
  obtain ⟨p, q, h, hg⟩ := fareyLoop_spec x maxden hm (2 * maxden + 2) 0 1 1 1 (by omega) (by omega) (le_refl _) (le_refl _)
    (Or.inl hm) (by omega) (le_refl _) rfl (by simpa using h0) (by simpa using h1)
  exact ⟨p, q, h, hg⟩

/-- Dirichlet's bound leaves no room for another fraction with a denominator up to `maxden`. -/
theorem exact_of_bound (p q r s m : Nat) (hq : 1 ≤ q) (hs : 1 ≤ s) (hsm : s ≤ m)
    (h : |(r : K) / (s : K) - (p : K) / (q : K)| ≤ 1 / ((q : K) * ((m : K) + 1))) : (r : K) / s = (p : K) / q := by
  have hq' : (0 : K) < q := by exact_mod_cast hq
  have hs' : (0 : K) < s := by exact_mod_cast hs
  have hm' : (0 : K) < (m : K) + 1 := by positivity
  have e : (r : K) / s - (p : K) / q = (((r * q : Int) - (p * s : Int) : Int) : K) / ((q : K) * s) := by
    push_cast
    field_simp
  rw [← sub_eq_zero, e]
  rw [e, abs_div, abs_of_pos (mul_pos hq' hs'), div_le_div_iff₀ (mul_pos hq' hs') (mul_pos hq' hm')] at h
  by_cases hz : ((r * q : Int) - (p * s : Int)) = 0
  · rw [hz]; simp
  · exfalso
    have h1 : (1 : Int) ≤ |((r * q : Int) - (p * s : Int))| := Int.one_le_abs hz
    have h2 : (1 : K) ≤ |(((r * q : Int) - (p * s : Int) : Int) : K)| := by rw [← Int.cast_abs]; exact_mod_cast h1
    have h3 : (s : K) < (m : K) + 1 := by exact_mod_cast Nat.lt_succ_of_le hsm
    nlinarith [mul_lt_mul_of_pos_left h3 hq', mul_le_mul_of_nonneg_right h2 (le_of_lt (mul_pos hq' hm'))]

/-- **C20 (`farey`, exactness).** A number in `[0, 1]` that is a fraction with denominator at most `maxden` is returned exactly. -/
theorem C20_farey_exact (r s maxden : Nat) (hs : 1 ≤ s) (hsm : s ≤ maxden) (hrs : r ≤ s) :
    ∃ p q, farey ((r : K) / (s : K)) maxden = .ok (p, q) ∧ 1 ≤ q ∧ q ≤ maxden ∧ Nat.Coprime p q ∧ (p : K) / q = (r : K) / s := by
  have hs' : (0 : K) < s := by exact_mod_cast hs
  obtain ⟨p, q, h, h1, h2, h3, h4, h5⟩ := C20_farey ((r : K) / (s : K)) maxden (by omega) (by positivity)
    (by rw [div_le_one hs']; exact_mod_cast hrs)
  exact ⟨p, q, h, h1, h2, h4, (exact_of_bound p q r s maxden h1 hs hsm h5).symm⟩

/-- The sign used by `rationalize`. -/
def sgn (x : K) : K := if x ≥ 0 then 1 else -1

theorem sgn_mul_abs (x : K) : sgn x * |x| = x := by
  unfold sgn
  by_cases h : x ≥ 0
  · rw [if_pos h, abs_of_nonneg h, one_mul]
  · rw [if_neg h, abs_of_neg (not_le.1 h)]; ring

/-- **C20 (`rationalize`, numbers up to one).** Denominator from 1 to `maxden`, and Dirichlet's bound. -/
theorem C20_rationalize_small (x : K) (maxden : Nat) (hm : 1 ≤ maxden) (h1 : |x| ≤ 1) :
    ∃ p q : Int, rationalize x maxden = .ok (p, q) ∧ 1 ≤ q ∧ q ≤ maxden ∧
      |x - (p : K) / (q : K)| ≤ 1 / ((q : K) * ((maxden : K) + 1)) := by
  obtain ⟨p, q, h, a1, a2, _, _, a5⟩ := C20_farey |x| maxden hm (abs_nonneg x) h1
  refine ⟨(if x ≥ 0 then 1 else -1) * p, q, ?_, by exact_mod_cast a1, by exact_mod_cast a2, ?_⟩
  · unfold rationalize
    rw [if_neg (not_lt.2 h1), h]
    rfl
  · have e : x - (((if x ≥ 0 then 1 else -1) * (p : Int) : Int) : K) / ((q : Int) : K) = sgn x * (|x| - (p : K) / q) := by
      rw [mul_sub, sgn_mul_abs]
      unfold sgn
      push_cast
      ring
    have hsg : |sgn x| = 1 := by unfold sgn; split_ifs <;> simp
    rw [e, abs_mul, hsg, one_mul]
    simpa using a5

/-- **C20 (`rationalize`, numbers above one).** For `1 < |x| ≤ maxden` the result has a positive denominator (and numerator)
not larger than `maxden`, and is exact if `x` is a fraction with a numerator up to `maxden`. -/
theorem C20_rationalize_large (x : K) (maxden : Nat) (h1 : 1 < |x|) (hx : |x| ≤ maxden) :
    ∃ p q : Int, rationalize x maxden = .ok (p, q) ∧ 1 ≤ q ∧ q ≤ |p| ∧ |p| ≤ maxden ∧
      |1 / x - (q : K) / (p : K)| ≤ 1 / ((|p| : Int) * ((maxden : K) + 1)) ∧
      (∀ r s : Nat, 1 ≤ r → r ≤ maxden → 1 ≤ s → |x| = (r : K) / s → x = (p : K) / (q : K)) := by
  have hx0 : 0 < |x| := lt_trans one_pos h1
  have hm : 1 ≤ maxden := by
    have : (1 : K) < maxden := lt_of_lt_of_le h1 hx
    have : 1 < maxden := by exact_mod_cast this
    omega
  obtain ⟨a, b, h, a1, a2, a3, a4, a5⟩ := C20_farey (1 / |x|) maxden hm (by positivity)
    (by rw [div_le_one hx0]; exact le_of_lt h1)
  have hb' : (0 : K) < b := by exact_mod_cast a1
  have ha : 1 ≤ a := by
    by_contra hc
    have ha0 : a = 0 := by omega
    subst ha0
    have hb1 : b = 1 := by simpa using a4
    subst hb1
    rw [Nat.cast_zero, zero_div, sub_zero, abs_of_nonneg (by positivity), Nat.cast_one, one_mul,
      div_le_div_iff₀ hx0 (by positivity)] at a5
    linarith
  have ha' : (0 : K) < a := by exact_mod_cast ha
  have hsq : sgn x * sgn x = 1 := by unfold sgn; split_ifs <;> ring
  have hs1 : ((if x ≥ 0 then (1 : Int) else -1) : Int) = 1 ∨ ((if x ≥ 0 then (1 : Int) else -1) : Int) = -1 := by
    split_ifs <;> simp
  have habs : |(if x ≥ 0 then (1 : Int) else -1) * (b : Int)| = b := by
    rcases hs1 with e | e <;> rw [e] <;> simp
  have hcast : (((if x ≥ 0 then (1 : Int) else -1) * (b : Int) : Int) : K) = sgn x * b := by
    unfold sgn; push_cast; rfl
  have hsn : sgn x ≠ 0 := fun hz => by rw [hz, zero_mul] at hsq; exact zero_ne_one hsq
  refine ⟨(if x ≥ 0 then 1 else -1) * b, a, ?_, by exact_mod_cast ha, ?_, ?_, ?_, ?_⟩
  · unfold rationalize
    rw [if_pos h1, h]
    rfl
  · rw [habs]; exact_mod_cast a3
  · rw [habs]; exact_mod_cast a2
  · rw [habs, hcast]
    have e : 1 / x - ((a : Int) : K) / (sgn x * b) = sgn x * (1 / |x| - (a : K) / b) := by
      have hxe : 1 / x = sgn x * (1 / |x|) := by
        conv_lhs => rw [← sgn_mul_abs x]
        rw [one_div, mul_inv, one_div]
        congr 1
        exact inv_eq_of_mul_eq_one_left hsq
      have hae : ((a : Int) : K) / (sgn x * b) = sgn x * ((a : K) / b) := by
        rw [div_mul_eq_div_div, Int.cast_natCast, div_div, mul_comm (sgn x) (b : K), ← div_div, div_eq_mul_inv,
          inv_eq_of_mul_eq_one_left hsq, mul_comm]
      rw [hxe, hae]; ring
    have hsg : |sgn x| = 1 := by unfold sgn; split_ifs <;> simp
    rw [e, abs_mul, hsg, one_mul]
    simpa using a5
  · intro r s hr hrm hs hxe
    have hr' : (0 : K) < r := by exact_mod_cast hr
    have hs' : (0 : K) < s := by exact_mod_cast hs
    have hinv : 1 / |x| = (s : K) / r := by rw [hxe]; field_simp
    rw [hinv] at a5
    have := exact_of_bound a b s r maxden a1 hr hrm a5
    have hxe2 : |x| = (b : K) / a := by
      rw [hxe]
      rw [div_eq_div_iff (ne_of_gt hr') (ne_of_gt hb')] at this
      rw [div_eq_div_iff (ne_of_gt hs') (ne_of_gt ha')]
      linarith
    rw [hcast]
    conv_lhs => rw [← sgn_mul_abs x, hxe2]
    push_cast
    ring

theorem farey_zero_loop (x : K) (m : Nat) (hx : 0 ≤ x) (hxm : x * ((m : K) + 1) < 1) : ∀ (fuel d : Nat), m + 2 ≤ fuel + d →
    1 ≤ d → d ≤ m + 1 → 1 ≤ m → fareyLoop x m fuel 0 1 1 d = .ok (0, 1) := by
  intro fuel
  induction fuel with
  | zero => intro d h1 h2 h3; omega
  | succ fuel ih =>
    intro d h1 h2 h3 hm
    rw [fareyLoop]
    by_cases hd : d ≤ m
    · rw [if_pos ⟨hm, hd⟩]
      have hlt : x < ((0 + 1 : Nat) : K) / ((1 + d : Nat) : K) := by
        have hp : (0 : K) < ((1 + d : Nat) : K) := by exact_mod_cast (by omega : 0 < 1 + d)
        rw [lt_div_iff₀ hp]
        have hle : ((1 + d : Nat) : K) ≤ (m : K) + 1 := by exact_mod_cast (by omega : 1 + d ≤ m + 1)
        calc x * ((1 + d : Nat) : K) ≤ x * ((m : K) + 1) := mul_le_mul_of_nonneg_left hle hx
          _ < 1 := hxm
          _ = ((0 + 1 : Nat) : K) := by norm_num
      simp only [if_neg (ne_of_lt hlt), if_neg (not_lt.2 (le_of_lt hlt))]
      exact ih (1 + d) (by omega) (by omega) (by omega) hm
    · rw [if_neg (by omega), if_neg (by omega)]

/-- **The denominator can be zero.** For every number larger than `maxden + 1` in magnitude the returned denominator is zero, so
`cleanRationalNumbers` (whose default bound is 6) turns it into an infinity. -/
theorem C20_zero_denominator (x : K) (maxden : Nat) (hm : 1 ≤ maxden) (hx : (maxden : K) + 1 < |x|) :
    ∃ p : Int, rationalize x maxden = .ok (p, 0) := by
  have hm0 : (0 : K) ≤ maxden := by positivity
  have hx0 : 0 < |x| := by linarith
  have h1 : |x| > 1 := by
    have : (1 : K) ≤ maxden := by exact_mod_cast hm
    linarith
  have := farey_zero_loop (1 / |x|) maxden (by positivity) (by rw [div_mul_eq_mul_div, one_mul, div_lt_one hx0]; exact hx)
    (2 * maxden + 2) 1 (by omega) (le_refl _) (by omega) hm
  refine ⟨(if x ≥ 0 then 1 else -1) * 1, ?_⟩
  unfold rationalize farey
  rw [if_pos h1, this]
  rfl

/-- With the default bound 6 the number 7 becomes 6 and the number 8 becomes an infinity. -/
theorem C20_integers_destroyed : cleanRationalNumbers [(5 : ℚ), 7, 8, -1 / 3] 6 =
    [.ok (some 5), .ok (some 6), .ok none, .ok (some (-1 / 3))] := by
  decide +kernel

/-- **The closest fraction is not always returned**: for `0.14` and denominators up to 6 the result is `0/1`, although `1/6` is
five times closer. -/
theorem C20_not_closest : farey (14 / 100 : ℚ) 6 = .ok (0, 1) ∧ 5 * |(14 / 100 : ℚ) - 1 / 6| ≤ |14 / 100 - 0 / 1| := by
  decide +kernel

example : farey (3 / 5 : ℚ) 6 = .ok (3, 5) ∧ rationalize (-5 / 3 : ℚ) 6 = .ok (-5, 3) ∧ farey (314 / 1000 : ℚ) 10 = .ok (1, 3) ∧
    farey (0 : ℚ) 6 = .ok (0, 1) ∧ farey (1 : ℚ) 6 = .ok (1, 1) := by
  decide +kernel

end Verif.Farey
