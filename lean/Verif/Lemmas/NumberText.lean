import Verif.Model.NumberText
import Verif.Spec.NumberText
import Verif.Lemmas.Strings
import Mathlib.Tactic.FieldSimp
import Mathlib.Tactic.Ring
import Mathlib.Tactic.Linarith
import Mathlib.Tactic.NormNum
import Mathlib.Tactic.Positivity
import Mathlib.Tactic.IntervalCases

namespace Verif.NumberText

open Numbers

/-! ### Digits -/

theorem digitChar_isDigit (d : Nat) (h : d < 10) : (digitChar d).isDigit = true := by
  interval_cases d <;> decide

theorem digitVal_digitChar (d : Nat) (h : d < 10) : digitVal (digitChar d) = d := by
  interval_cases d <;> decide

theorem digitsVal_append (a b : Str) : digitsVal (a ++ b) = digitsVal a * 10 ^ b.length + digitsVal b := by
  induction b using List.reverseRecOn with
  | nil => simp [digitsVal]
  | append_singleton b c ih =>
    have h1 : ∀ (l : Str), digitsVal (l ++ [c]) = 10 * digitsVal l + digitVal c := by
      intro l; simp [digitsVal, List.foldl_append]
    rw [← List.append_assoc, h1, h1, ih, List.length_append, List.length_singleton, pow_succ]
    ring

theorem digitsVal_snoc (l : Str) (c : Char) : digitsVal (l ++ [c]) = 10 * digitsVal l + digitVal c := by
  simp [digitsVal, List.foldl_append]

theorem digitsVal_zeros (k : Nat) : digitsVal (List.replicate k '0') = 0 := by
  induction k with
  | zero => rfl
  | succ k ih => rw [List.replicate_succ', digitsVal_snoc, ih]; rfl

theorem fixedDigits_length (w m : Nat) : (fixedDigits w m).length = w := by
  induction w generalizing m with
  | zero => rfl
  | succ w ih => simp [fixedDigits, ih]

theorem fixedDigits_isDigit (w m : Nat) : ∀ c ∈ fixedDigits w m, c.isDigit = true := by
  induction w generalizing m with
  | zero => simp [fixedDigits]
  | succ w ih =>
    intro c hc
    simp only [fixedDigits, List.mem_append, List.mem_singleton] at hc
    rcases hc with hc | rfl
    · exact ih _ _ hc
    · exact digitChar_isDigit _ (Nat.mod_lt _ (by norm_num))

theorem fixedDigits_val (w m : Nat) (h : m < 10 ^ w) : digitsVal (fixedDigits w m) = m := by
  induction w generalizing m with
  | zero => simp at h; subst h; rfl
  | succ w ih =>
    rw [fixedDigits, digitsVal_snoc, ih _ (by rw [pow_succ] at h; omega), digitVal_digitChar _ (Nat.mod_lt _ (by norm_num))]
    omega

theorem natDigits_isDigit (n : Nat) : ∀ c ∈ natDigits n, c.isDigit = true := by
  intro c hc
  simp only [natDigits, List.mem_map, List.mem_reverse] at hc
  obtain ⟨d, hd, rfl⟩ := hc
  exact digitChar_isDigit _ (Nat.digits_lt_base (by norm_num) hd)

theorem natDigits_val (n : Nat) : digitsVal (natDigits n) = n := by
  have h : ∀ l : List Nat, (∀ d ∈ l, d < 10) → digitsVal ((l.reverse).map digitChar) = Nat.ofDigits 10 l := by
    intro l hl
    induction l with
    | nil => rfl
    | cons d l ih =>
      rw [List.reverse_cons, List.map_append, List.map_singleton, digitsVal_snoc, ih fun x hx => hl x (List.mem_cons_of_mem _ hx),
        digitVal_digitChar _ (hl d (by simp)), Nat.ofDigits_cons]
      push_cast; ring
  rw [natDigits, h _ fun d hd => Nat.digits_lt_base (by norm_num) hd, Nat.ofDigits_digits]

/-! ### Zeros at the end -/

theorem strip_spec (s : Str) : ∃ k, s = strip s ++ List.replicate k '0' := by
  refine ⟨(s.reverse.takeWhile (· = '0')).length, ?_⟩
  have h : s.reverse.takeWhile (· = '0') = List.replicate (s.reverse.takeWhile (· = '0')).length '0' := by
    rw [List.eq_replicate_iff]
    exact ⟨rfl, fun b hb => by have := List.all_eq_true.1 (List.all_takeWhile (p := fun c => decide (c = '0')) (l := s.reverse)) b hb; simpa using this⟩
  have h2 := List.takeWhile_append_dropWhile (p := (· = '0')) (l := s.reverse)
  have h3 := congrArg List.reverse h2
  rw [List.reverse_append, List.reverse_reverse] at h3
  conv_lhs => rw [← h3, h, List.reverse_replicate]
  rfl

theorem strip_mem (s : Str) : ∀ c ∈ strip s, c ∈ s := by
  intro c hc
  obtain ⟨k, hk⟩ := strip_spec s
  rw [hk]
  exact List.mem_append_left _ hc

theorem strip_val (ip s : Str) : (digitsVal (ip ++ strip s) : ℚ) / 10 ^ (strip s).length = (digitsVal (ip ++ s) : ℚ) / 10 ^ s.length := by
  obtain ⟨k, hk⟩ := strip_spec s
  have h1 : digitsVal (ip ++ s) = digitsVal (ip ++ strip s) * 10 ^ k := by
    conv_lhs => rw [hk]
    rw [← List.append_assoc, digitsVal_append, digitsVal_zeros]; simp
  have h2 : s.length = (strip s).length + k := by
    conv_lhs => rw [hk]
    simp
  rw [h1, h2, pow_add]
  push_cast
  field_simp

/-! ### Reading -/

theorem takeWhile_digits (ip rest : Str) (hip : ∀ c ∈ ip, c.isDigit = true) (hr : ∀ c ∈ rest.head?, c.isDigit = false) :
    (ip ++ rest).takeWhile Char.isDigit = ip ∧ (ip ++ rest).dropWhile Char.isDigit = rest := by
  induction ip with
  | nil =>
    cases rest with
    | nil => simp
    | cons c r =>
      have := hr c (by simp)
      simp [this]
  | cons c ip ih =>
    have h := ih fun x hx => hip x (List.mem_cons_of_mem _ hx)
    have hc := hip c (by simp)
    simp [hc, h.1, h.2]

theorem readPos_withPoint (ip fp tail : Str) (h0 : ip ≠ []) (hip : ∀ c ∈ ip, c.isDigit = true) (hfp : ∀ c ∈ fp, c.isDigit = true)
    (ht : ∀ c ∈ tail.head?, c.isDigit = false ∧ c ≠ '.') :
    readPos (withPoint ip fp ++ tail) = (digitsVal (ip ++ fp) : ℚ) / 10 ^ fp.length * 10 ^ readExponent tail := by
  rw [← strip_val]
  unfold withPoint
  by_cases hs : strip fp = []
  · rw [if_pos hs, List.append_nil, hs]
    obtain ⟨h1, h2⟩ := takeWhile_digits ip tail hip fun c hc => (ht c hc).1
    unfold readPos
    simp only [h1, h2]
    split
    · rename_i fr
      exact absurd rfl (ht '.' (by simp)).2
    · rw [if_neg h0]; simp
  · rw [if_neg hs, List.append_assoc, List.cons_append]
    have hd : ∀ c ∈ strip fp, c.isDigit = true := fun c hc => hfp c (strip_mem fp c hc)
    obtain ⟨h1, h2⟩ := takeWhile_digits ip ('.' :: (strip fp ++ tail)) hip (by simp)
    obtain ⟨h3, h4⟩ := takeWhile_digits (strip fp) tail hd fun c hc => (ht c hc).1
    unfold readPos
    simp only [h1, h2, h3, h4]
    rw [if_neg fun h => h0 h.1]

theorem readExponent_exponentText (e : ℤ) : readExponent (exponentText e) = e := by
  have hd : ∀ ds : Str, (∀ c ∈ ds, c.isDigit = true) → ds.takeWhile Char.isDigit = ds := by
    intro ds h
    have := (takeWhile_digits ds [] h (by simp)).1
    simpa using this
  have hv : ∀ n : Nat, ((if n < 10 then fixedDigits 2 n else natDigits n).takeWhile Char.isDigit =
      if n < 10 then fixedDigits 2 n else natDigits n) ∧ digitsVal (if n < 10 then fixedDigits 2 n else natDigits n) = n := by
    intro n
    split
    · exact ⟨hd _ (fixedDigits_isDigit _ _), fixedDigits_val _ _ (by omega)⟩
    · exact ⟨hd _ (natDigits_isDigit _), natDigits_val _⟩
  unfold exponentText
  by_cases h : e < 0
  · rw [if_pos h]
    simp only [List.cons_append, List.nil_append, readExponent, true_or, if_true]
    rw [(hv _).1, (hv _).2]
    omega
  · rw [if_neg h]
    simp only [List.cons_append, List.nil_append, readExponent, true_or, if_true]
    rw [(hv _).1, (hv _).2]
    omega

/-! ### Rounding -/

theorem roundEven_spec (q : ℚ) (hq : 0 ≤ q) (n : ℤ) : |(roundEven q : ℚ) - q| ≤ |n - q| ∧ |(roundEven q : ℚ) - q| ≤ 1 / 2 := by
  have h1 := Nat.floor_le hq
  have h2 := Nat.lt_floor_add_one q
  have hr : (roundEven q : ℚ) = ⌊q⌋₊ ∧ q - ⌊q⌋₊ ≤ 1 / 2 ∨ (roundEven q : ℚ) = ⌊q⌋₊ + 1 ∧ 1 / 2 ≤ q - ⌊q⌋₊ := by
    unfold roundEven
    simp only
    split_ifs with a b c
    · exact .inl ⟨rfl, a.le⟩
    · exact .inr ⟨by push_cast; rfl, b.le⟩
    · exact .inl ⟨rfl, not_lt.1 b⟩
    · exact .inr ⟨by push_cast; rfl, not_lt.1 a⟩
  have hn : (n : ℚ) ≤ ⌊q⌋₊ ∨ (⌊q⌋₊ : ℚ) + 1 ≤ n := by
    rcases le_or_gt n (⌊q⌋₊ : ℤ) with h | h
    · left; exact_mod_cast h
    · right
      have : (⌊q⌋₊ : ℤ) + 1 ≤ n := h
      exact_mod_cast this
  generalize (⌊q⌋₊ : ℚ) = f at *
  generalize (roundEven q : ℚ) = r at *
  generalize (n : ℚ) = k at *
  constructor
  · rcases hr with ⟨rfl, h⟩ | ⟨rfl, h⟩ <;> rcases hn with hn | hn
    · rw [abs_of_nonpos (by linarith), abs_of_nonpos (by linarith)]; linarith
    · rw [abs_of_nonpos (by linarith), abs_of_nonneg (by linarith)]; linarith
    · rw [abs_of_nonneg (by linarith), abs_of_nonpos (by linarith)]; linarith
    · rw [abs_of_nonneg (by linarith), abs_of_nonneg (by linarith)]; linarith
  · rcases hr with ⟨rfl, h⟩ | ⟨rfl, h⟩
    · rw [abs_of_nonpos (by linarith)]; linarith
    · rw [abs_of_nonneg (by linarith)]; linarith

/-- The number made of the digits that are printed. -/
def rounded (x : ℚ) : ℚ := (decompose x).1 * 10 ^ ((decompose x).2 - 5)

theorem decompose_spec (x : ℚ) (hx : 0 < x) :
    10 ^ 5 ≤ (decompose x).1 ∧ (decompose x).1 < 10 ^ 6 ∧
    rounded x = roundEven (x * 10 ^ (5 - Int.log 10 x)) * (10 : ℚ) ^ (Int.log 10 x - 5) := by
  set e := Int.log 10 x with he
  have hl : (10 : ℚ) ^ e ≤ x := by
    have := Int.zpow_log_le_self (b := 10) (by norm_num) hx
    exact_mod_cast this
  have hu : x < (10 : ℚ) ^ (e + 1) := by
    have := Int.lt_zpow_succ_log_self (b := 10) (by norm_num) x
    exact_mod_cast this
  have hp : (0 : ℚ) < (10 : ℚ) ^ (5 - e : ℤ) := zpow_pos (by norm_num) _
  have h1 : (10 : ℚ) ^ 5 ≤ x * 10 ^ (5 - e) := by
    calc (10 : ℚ) ^ 5 = 10 ^ e * 10 ^ (5 - e) := by rw [← zpow_add₀ (by norm_num)]; norm_num
      _ ≤ x * 10 ^ (5 - e) := by gcongr
  have h2 : x * 10 ^ (5 - e) < (10 : ℚ) ^ 6 := by
    calc x * 10 ^ (5 - e) < 10 ^ (e + 1) * 10 ^ (5 - e) := by gcongr
      _ = 10 ^ 6 := by rw [← zpow_add₀ (by norm_num), show e + 1 + (5 - e) = 6 from by ring]; norm_num
  have h3 := (roundEven_spec _ (by positivity : 0 ≤ x * 10 ^ (5 - e)) (10 ^ 5)).2
  rw [abs_le] at h3
  have h4 : 10 ^ 5 ≤ roundEven (x * 10 ^ (5 - e)) := by
    by_contra h
    have : (roundEven (x * 10 ^ (5 - e)) : ℚ) + 1 ≤ 10 ^ 5 := by exact_mod_cast (not_le.1 h)
    linarith
  have h5 : roundEven (x * 10 ^ (5 - e)) ≤ 10 ^ 6 := by
    by_contra h
    have : (10 : ℚ) ^ 6 + 1 ≤ roundEven (x * 10 ^ (5 - e)) := by exact_mod_cast (not_le.1 h)
    linarith
  unfold rounded decompose
  simp only [← he]
  split
  · rename_i h
    refine ⟨le_rfl, by norm_num, ?_⟩
    rw [h]
    push_cast
    rw [show e + 1 - 5 = (e - 5) + 1 from by ring, zpow_add₀ (by norm_num)]
    norm_num; ring
  · rename_i h
    exact ⟨h4, lt_of_le_of_ne h5 h, rfl⟩

/-- What is printed is what is read, for positive numbers. -/
theorem readPos_formatPos (x : ℚ) (hx : 0 < x) : readPos (formatPos x) = rounded x := by
  obtain ⟨h1, h2, -⟩ := decompose_spec x hx
  unfold formatPos rounded
  generalize decompose x = d at *
  obtain ⟨m, e⟩ := d
  simp only at *
  have hds := fixedDigits_isDigit 6 m
  have hlen := fixedDigits_length 6 m
  have hval := fixedDigits_val 6 m h2
  split
  · rename_i he
    obtain ⟨n, rfl⟩ := Int.eq_ofNat_of_zero_le he.1
    simp only [Int.toNat_natCast]
    have hn : n < 6 := by omega
    have := readPos_withPoint ((fixedDigits 6 m).take (n + 1)) ((fixedDigits 6 m).drop (n + 1)) []
      (by intro h; have := congrArg List.length h; simp [hlen] at this)
      (fun c hc => hds c (List.mem_of_mem_take hc)) (fun c hc => hds c (List.mem_of_mem_drop hc)) (by simp)
    rw [List.append_nil] at this
    rw [this, List.take_append_drop, hval, List.length_drop, hlen]
    simp only [readExponent, zpow_zero, mul_one]
    have : ((n : ℤ) - 5) = -((6 - (n + 1) : ℕ) : ℤ) := by omega
    rw [this, zpow_neg, zpow_natCast]
    rfl
  · split
    · rename_i he
      obtain ⟨he1, he2⟩ := he
      obtain ⟨k, hk⟩ := Int.eq_ofNat_of_zero_le (by omega : 0 ≤ -e - 1)
      have := readPos_withPoint ['0'] (List.replicate (-e - 1).toNat '0' ++ fixedDigits 6 m) [] (by simp)
        (by simp) (by
          intro c hc
          simp only [List.mem_append, List.mem_replicate] at hc
          rcases hc with ⟨_, rfl⟩ | hc
          · decide
          · exact hds c hc) (by simp)
      rw [List.append_nil] at this
      rw [this, hk]
      simp only [Int.toNat_natCast, readExponent, zpow_zero, mul_one, List.length_append, List.length_replicate, hlen]
      have hz : digitsVal (['0'] ++ (List.replicate k '0' ++ fixedDigits 6 m)) = m := by
        rw [← List.append_assoc, digitsVal_append, hval, show ['0'] ++ List.replicate k '0' = List.replicate (k + 1) '0' from rfl,
          digitsVal_zeros]
        simp
      rw [hz]
      have : e - 5 = -((k + 6 : ℕ) : ℤ) := by push_cast; omega
      rw [this, zpow_neg, zpow_natCast]
      rfl
    · have := readPos_withPoint ((fixedDigits 6 m).take 1) ((fixedDigits 6 m).drop 1) (exponentText e)
        (by intro h; have := congrArg List.length h; simp [hlen] at this)
        (fun c hc => hds c (List.mem_of_mem_take hc)) (fun c hc => hds c (List.mem_of_mem_drop hc))
        (by simp [exponentText])
      rw [this, List.take_append_drop, hval, List.length_drop, hlen, readExponent_exponentText, zpow_sub₀ (by norm_num)]
      norm_num
      ring

theorem formatPos_head (x : ℚ) : ∀ c ∈ (formatPos x).head?, c.isDigit = true := by
  unfold formatPos
  generalize decompose x = d
  obtain ⟨m, e⟩ := d
  simp only
  have hds := fixedDigits_isDigit 6 m
  have hw : ∀ (ip fp tail : Str), ip ≠ [] → (∀ c ∈ ip, c.isDigit = true) → ∀ c ∈ (withPoint ip fp ++ tail).head?, c.isDigit = true := by
    intro ip fp tail h0 hip c hc
    cases ip with
    | nil => exact absurd rfl h0
    | cons d ip =>
      simp [withPoint] at hc
      subst hc
      exact hip _ (by simp)
  have ht : ∀ n, (fixedDigits 6 m).take (n + 1) ≠ [] := by
    intro n h; have := congrArg List.length h; simp [fixedDigits_length] at this
  split
  · have := hw _ ((fixedDigits 6 m).drop (e.toNat + 1)) [] (ht e.toNat) (fun c hc => hds c (List.mem_of_mem_take hc))
    simpa using this
  · split
    · have := hw ['0'] (List.replicate (-e - 1).toNat '0' ++ fixedDigits 6 m) [] (by simp) (by simp)
      simpa using this
    · exact hw _ _ _ (ht 0) (fun c hc => hds c (List.mem_of_mem_take hc))

theorem tofloat_digit (s : Str) (h : ∀ c ∈ s.head?, c.isDigit = true) : tofloat s = readPos s := by
  unfold tofloat
  split
  · exact absurd (h '-' (by simp)) (by decide)
  · exact absurd (h '+' (by simp)) (by decide)
  · rfl

/-- The number read from the text of a number. -/
def reread (x : ℚ) : ℚ := if x = 0 then 0 else if x < 0 then -rounded (-x) else rounded x

theorem tofloat_format (x : ℚ) : tofloat (format x) = reread x := by
  unfold format reread
  split_ifs with h0 h1
  · decide +kernel
  · simp only [tofloat]
    rw [readPos_formatPos _ (by linarith)]
  · rw [tofloat_digit _ (formatPos_head x), readPos_formatPos _ (lt_of_le_of_ne (not_lt.1 h1) (Ne.symm h0))]

/-! ### Six digits -/

theorem SixDigits.neg {x : ℚ} (h : SixDigits x) : SixDigits (-x) := by
  obtain ⟨k, j, hk, rfl⟩ := h
  exact ⟨-k, j, by rwa [abs_neg], by push_cast; ring⟩

theorem sixDigits_zero : SixDigits 0 := ⟨0, 0, by norm_num, by norm_num⟩

theorem rounded_nearest (x : ℚ) (hx : 0 < x) : Nearest x (rounded x) ∧ |rounded x - x| ≤ 5 / 10 ^ 6 * x := by
  obtain ⟨d1, d2, d3⟩ := decompose_spec x hx
  set e := Int.log 10 x with he
  have hl : (10 : ℚ) ^ e ≤ x := by
    have := Int.zpow_log_le_self (b := 10) (by norm_num) hx
    exact_mod_cast this
  set u : ℚ := (10 : ℚ) ^ (e - 5) with hu
  have hup : 0 < u := zpow_pos (by norm_num) _
  have hinv : (10 : ℚ) ^ (5 - e) = u⁻¹ := by rw [hu, ← zpow_neg]; congr 1; ring
  have hmul : ∀ n : ℤ, |rounded x - x| ≤ |n * u - x| ∧ |rounded x - x| ≤ u / 2 := by
    intro n
    have hr := roundEven_spec (x * 10 ^ (5 - e)) (by rw [hinv]; positivity) n
    rw [d3]
    have h1 : ∀ a : ℚ, |a * u - x| = |a - x * 10 ^ (5 - e)| * u := by
      intro a
      rw [hinv, ← abs_of_pos hup, ← abs_mul, abs_of_pos hup]
      congr 1
      field_simp
    rw [h1, h1]
    refine ⟨mul_le_mul_of_nonneg_right hr.1 hup.le, ?_⟩
    have := mul_le_mul_of_nonneg_right hr.2 hup.le
    linarith
  refine ⟨⟨⟨(decompose x).1, (decompose x).2 - 5, ?_, by rw [rounded]; push_cast; rfl⟩, ?_⟩, ?_⟩
  · rw [abs_of_nonneg (by positivity)]; exact_mod_cast d2
  · intro z hz
    have h10 : (10 : ℚ) ^ e = (10 ^ 5 : ℤ) * u := by
      push_cast
      rw [hu, zpow_sub₀ (by norm_num)]; norm_num; ring
    rcases le_or_gt ((10 : ℚ) ^ e) z with hz1 | hz1
    · obtain ⟨k, j, hk, rfl⟩ := hz
      have hj : e - 5 ≤ j := by
        have h1 : (10 : ℚ) ^ e < 10 ^ (j + 6) := by
          calc (10 : ℚ) ^ e ≤ k * 10 ^ j := hz1
            _ ≤ |(k : ℚ)| * 10 ^ j := mul_le_mul_of_nonneg_right (le_abs_self _) (zpow_nonneg (by norm_num) _)
            _ < 10 ^ 6 * 10 ^ j := mul_lt_mul_of_pos_right (by exact_mod_cast hk) (zpow_pos (by norm_num) _)
            _ = 10 ^ (j + 6) := by rw [zpow_add₀ (by norm_num)]; norm_num; ring
        have := (zpow_lt_zpow_iff_right₀ (by norm_num : (1 : ℚ) < 10)).1 h1
        omega
      obtain ⟨n, hn⟩ := Int.eq_ofNat_of_zero_le (by omega : 0 ≤ j - (e - 5))
      have : (k : ℚ) * 10 ^ j = ((k * 10 ^ n : ℤ) : ℚ) * u := by
        push_cast
        rw [show j = (n : ℤ) + (e - 5) from by omega, zpow_add₀ (by norm_num), zpow_natCast]; ring
      rw [this]
      exact (hmul _).1
    · refine le_trans (hmul (10 ^ 5)).1 ?_
      rw [← h10, abs_of_nonpos (by linarith), abs_of_nonpos (by linarith)]
      linarith
  · refine le_trans (hmul 0).2 ?_
    have : u = 10 ^ e / 10 ^ 5 := by rw [hu, zpow_sub₀ (by norm_num)]; norm_num
    rw [this]
    nlinarith

theorem reread_nearest (x : ℚ) : Nearest x (reread x) ∧ |reread x - x| ≤ 5 / 10 ^ 6 * |x| := by
  unfold reread
  split_ifs with h0 h1
  · subst h0
    exact ⟨⟨sixDigits_zero, fun z _ => by simp⟩, by simp⟩
  · obtain ⟨⟨h2, h3⟩, h4⟩ := rounded_nearest (-x) (by linarith)
    have hn : ∀ y : ℚ, |-y - x| = |y - -x| := by intro y; rw [← abs_neg]; congr 1; ring
    refine ⟨⟨h2.neg, fun z hz => ?_⟩, ?_⟩
    · have := h3 (-z) hz.neg
      rw [hn]
      refine this.trans (le_of_eq ?_)
      rw [← abs_neg]; congr 1; ring
    · rw [hn, abs_of_neg h1]; exact h4
  · have hp : 0 < x := lt_of_le_of_ne (not_lt.1 h1) (Ne.symm h0)
    rw [abs_of_pos hp]
    exact rounded_nearest x hp

/-! ### Texts of several pairs -/

theorem withPoint_chars (ip fp : Str) (h : ∀ c ∈ ip ++ fp, c.isDigit = true) : ∀ c ∈ withPoint ip fp, c ≠ ':' ∧ c ≠ ' ' := by
  have hd : ∀ c : Char, c.isDigit = true → c ≠ ':' ∧ c ≠ ' ' := by
    intro c hc
    constructor <;> (rintro rfl; revert hc; decide)
  intro c hc
  unfold withPoint at hc
  rw [List.mem_append] at hc
  rcases hc with hc | hc
  · exact hd c (h c (List.mem_append_left _ hc))
  · split at hc
    · cases hc
    · rcases List.mem_cons.1 hc with rfl | hc
      · decide
      · exact hd c (h c (List.mem_append_right _ (strip_mem _ _ hc)))

theorem formatPos_chars (x : ℚ) : ∀ c ∈ formatPos x, c ≠ ':' ∧ c ≠ ' ' := by
  have hd : ∀ c : Char, c.isDigit = true → c ≠ ':' ∧ c ≠ ' ' := by
    intro c hc
    constructor <;> (rintro rfl; revert hc; decide)
  unfold formatPos
  generalize decompose x = d
  obtain ⟨m, e⟩ := d
  simp only
  have hds := fixedDigits_isDigit 6 m
  have ht : ∀ n, ∀ c ∈ (fixedDigits 6 m).take n ++ (fixedDigits 6 m).drop n, c.isDigit = true := by
    intro n; rw [List.take_append_drop]; exact hds
  split
  · exact withPoint_chars _ _ (ht _)
  · split
    · refine withPoint_chars _ _ ?_
      intro c hc
      simp only [List.mem_append, List.mem_replicate, List.mem_singleton] at hc
      rcases hc with rfl | ⟨_, rfl⟩ | hc
      · decide
      · decide
      · exact hds c hc
    · intro c hc
      rcases List.mem_append.1 hc with hc | hc
      · exact withPoint_chars _ _ (ht _) c hc
      · unfold exponentText at hc
        rcases List.mem_append.1 hc with hc | hc
        · simp only [List.mem_cons, List.not_mem_nil, or_false] at hc
          rcases hc with rfl | hc
          · decide
          · split at hc <;> subst hc <;> decide
        · split at hc
          · exact hd c (fixedDigits_isDigit _ _ c hc)
          · exact hd c (natDigits_isDigit _ c hc)

theorem format_chars (x : ℚ) : ∀ c ∈ format x, c ≠ ':' ∧ c ≠ ' ' := by
  unfold format
  split_ifs
  · intro c hc; rw [List.mem_singleton.1 hc]; decide
  · intro c hc
    rcases List.mem_cons.1 hc with rfl | hc
    · decide
    · exact formatPos_chars _ c hc
  · exact formatPos_chars x

theorem repr_eq_join (l : List (Str × ℚ)) : repr 0 l = Strings.join (l.map pairText) [' '] := by
  cases l with
  | nil => rfl
  | cons p l =>
    rw [List.map_cons, Strings.join_cons]
    have : ∀ (l : List (Str × ℚ)) (i : Nat), i ≠ 0 → repr i l = ((l.map pairText).map fun w => [' '] ++ w).flatten := by
      intro l
      induction l with
      | nil => intro i _; rfl
      | cons p l ih => intro i hi; simp [repr, hi, ih]
    rw [repr, this l 1 (by norm_num)]
    simp

theorem takeWhile_colon (a b : Str) (h : ∀ c ∈ a, c ≠ ':') :
    (a ++ ':' :: b).takeWhile (· ≠ ':') = a ∧ (a ++ ':' :: b).dropWhile (· ≠ ':') = ':' :: b := by
  induction a with
  | nil => simp
  | cons c a ih =>
    have hc := h c (by simp)
    have := ih fun x hx => h x (List.mem_cons_of_mem _ hx)
    rw [List.cons_append, List.takeWhile_cons_of_pos (by simpa using hc), List.dropWhile_cons_of_pos (by simpa using hc), this.1, this.2]
    exact ⟨rfl, rfl⟩

theorem splitPair_pairText (p : Str × ℚ) : splitPair (pairText p) = (p.1, reread p.2) := by
  obtain ⟨h1, h2⟩ := takeWhile_colon (format p.2) p.1 fun c hc => (format_chars _ c hc).1
  unfold splitPair pairText
  simp only [h1, h2, tofloat_format]

theorem addPair_go_total (p : Str × ℚ) (l : List (Str × ℚ)) (h : p.1 ∈ l.map Prod.fst) (s : Str) :
    total (addPair.go p l) s = total l s + if p.1 = s then p.2 else 0 := by
  induction l with
  | nil => simp at h
  | cons q l ih =>
    unfold addPair.go
    split
    · rename_i hq
      by_cases hs : p.1 = s
      · have : q.1 = s := hq.trans hs
        simp [total, this, hs]; ring
      · have : q.1 ≠ s := fun h' => hs (hq ▸ h')
        simp [total, this, hs]
    · rename_i hq
      have := ih (by simpa [Ne.symm hq] using h)
      unfold total at this ⊢
      by_cases hs : q.1 = s
      · simp [hs, this, add_assoc]
      · simp [hs, this]

theorem addPair_go_fst (p : Str × ℚ) (l : List (Str × ℚ)) : (addPair.go p l).map Prod.fst = l.map Prod.fst := by
  induction l with
  | nil => rfl
  | cons q l ih =>
    unfold addPair.go
    split
    · simp
    · simp [ih]

theorem addPair_total (l : List (Str × ℚ)) (p : Str × ℚ) (s : Str) :
    total (addPair l p) s = total l s + if p.1 = s then p.2 else 0 := by
  unfold addPair
  split
  · rename_i h; exact addPair_go_total p l h s
  · by_cases hs : p.1 = s
    · simp [total, List.filter_append, hs]
    · simp [total, List.filter_append, hs]

theorem addPair_nodup (l : List (Str × ℚ)) (p : Str × ℚ) (h : (l.map Prod.fst).Nodup) : ((addPair l p).map Prod.fst).Nodup := by
  unfold addPair
  split
  · rw [addPair_go_fst]; exact h
  · rename_i hp
    rw [List.map_append, List.nodup_append]
    refine ⟨h, by simp, ?_⟩
    intro a ha b hb hab
    simp at hb
    exact hp (by rw [← hb, ← hab]; exact ha)

theorem addPair_mem (l : List (Str × ℚ)) (p : Str × ℚ) (s : Str) : s ∈ (addPair l p).map Prod.fst ↔ s ∈ l.map Prod.fst ∨ s = p.1 := by
  unfold addPair
  split
  · rename_i h
    rw [addPair_go_fst]
    constructor
    · exact .inl
    · rintro (h' | rfl)
      · exact h'
      · exact h
  · simp

theorem foldl_addPair_distinct (l acc : List (Str × ℚ)) (h : ((acc ++ l).map Prod.fst).Nodup) : l.foldl addPair acc = acc ++ l := by
  induction l generalizing acc with
  | nil => simp
  | cons p l ih =>
    have hp : p.1 ∉ acc.map Prod.fst := by
      rw [List.map_append, List.map_cons, List.nodup_append] at h
      intro hm
      exact h.2.2 _ hm _ (by simp) rfl
    have : addPair acc p = acc ++ [p] := by unfold addPair; rw [if_neg hp]
    rw [List.foldl_cons, this, ih _ (by simpa using h)]
    simp

theorem foldl_addPair_spec (l acc : List (Str × ℚ)) (h : (acc.map Prod.fst).Nodup) :
    ((l.foldl addPair acc).map Prod.fst).Nodup ∧ (∀ s, s ∈ (l.foldl addPair acc).map Prod.fst ↔ s ∈ (acc ++ l).map Prod.fst) ∧
    ∀ s, total (l.foldl addPair acc) s = total acc s + total l s := by
  induction l generalizing acc with
  | nil => simp [h, total]
  | cons p l ih =>
    obtain ⟨h1, h2, h3⟩ := ih (addPair acc p) (addPair_nodup acc p h)
    refine ⟨h1, ?_, ?_⟩
    · intro s
      rw [List.foldl_cons, h2, List.map_append, List.mem_append, addPair_mem]
      simp [List.map_append, or_assoc]
    · intro s
      rw [List.foldl_cons, h3, addPair_total]
      by_cases hs : p.1 = s
      · simp [total, hs]; ring
      · simp [total, hs]

theorem split_repr (l : List (Str × ℚ)) (h : ∀ p ∈ l, ' ' ∉ p.1) : (Strings.split (repr 0 l) [' ']).map splitPair =
    l.map fun p => (p.1, reread p.2) := by
  rw [repr_eq_join, Strings.split_join _ [' '] [' '] (by simp) (by simp)]
  · rw [List.map_map]
    exact List.map_congr_left fun p _ => splitPair_pairText p
  · intro w hw
    obtain ⟨p, hp, rfl⟩ := List.mem_map.1 hw
    refine ⟨by simp [pairText], ?_⟩
    intro c hc
    rw [List.mem_singleton]
    unfold pairText at hc
    rcases List.mem_append.1 hc with hc | hc
    · exact (format_chars _ c hc).2
    · rcases List.mem_cons.1 hc with rfl | hc
      · decide
      · rintro rfl; exact h p hp hc

end Verif.NumberText
