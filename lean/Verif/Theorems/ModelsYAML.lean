import Verif.Spec.ModelsYAML

/-!
# C71 : thermodynamic models survive saving and loading
-/

namespace Verif.ModelsYAML

@[local simp] theorem bind_ok {α β : Type} (a : α) (f : α → Res β) : (Res.ok a).bind f = f a := rfl

private theorem asNums_go (l : List ℝ) : asNums.go (l.map .num) = .ok l := by
  induction l with
  | nil => rfl
  | cons x l ih => simp [asNums.go, asNum, ih]

@[local simp] private theorem asNums_nums (l : List ℝ) : asNums (nums l) = .ok l := by
  simp [asNums, nums, asNums_go]

/-! ### Reading what was written -/

theorem constLgK_round (p : ConstLgK) : ConstLgK.decode p.encode = .ok p := by
  simp [ConstLgK.decode, ConstLgK.encode, reqNum, optNum, at', child, asNum]

theorem gemsLgK_round (p : GemsLgK) : GemsLgK.decode p.encode = .ok p := by
  simp [GemsLgK.decode, GemsLgK.encode, reqNum, optNum, at', child, asNum]

theorem phreeqcLgK_round (p : PhreeqcLgK) : PhreeqcLgK.decode p.encode = .ok p := by
  simp [PhreeqcLgK.decode, PhreeqcLgK.encode, reqNum, optNum, at', child, asNum]

theorem vantHoff_round (p : VantHoff) : VantHoff.decode p.encode = .ok p := by
  simp [VantHoff.decode, VantHoff.encode, reqNum, optNum, at', child, asNum]

theorem constant_round (p : StandardModels.Props) : decodeConstant (encodeConstant p) = .ok p := by
  simp [decodeConstant, encodeConstant, reqNum, optNum, at', child, asNum]

theorem hkf_round (p : HKFParams) : HKFParams.decode p.encode = .ok { p with Tmax := 0 } := by
  simp [HKFParams.decode, HKFParams.encode, reqNum, at', child, asNum]

theorem maierKelley_round (p : MaierKelleyParams) : MaierKelleyParams.decode p.encode = .ok p := by
  simp [MaierKelleyParams.decode, MaierKelleyParams.encode, reqNum, at', child, asNum]

theorem mineral_round (p : MineralParams) : MineralParams.decode p.encode = .ok p := by
  simp [MineralParams.decode, MineralParams.encode, reqNum, reqNat, reqNums, at', child, asNum, asNat]

theorem water_round (p : HKF.WaterParams) : decodeWater (encodeWater p) = .ok p := by
  simp [decodeWater, encodeWater, reqNum, at', child, asNum]

theorem hollandPowell_round (p : HollandPowellParams) :
    HollandPowellParams.decode p.encode =
      .ok (if p.kappa0 = 0 then { p with alpha0 := 0, kappa0p := 0, kappa0pp := 0, numatoms := 0 } else p) := by
  by_cases h : p.kappa0 = 0
  · simp [HollandPowellParams.decode, HollandPowellParams.encode, decodeExpansion, reqNum, at', child, asNum, h]
  · simp [HollandPowellParams.decode, HollandPowellParams.encode, decodeExpansion, reqNum, at', child, asNum, h]

/-- **C71**, reaction models : a saved reaction model is read back as the same model, whatever the values of its parameters. -/
theorem C71_reaction (m : RxnModel) (hm : m.BuiltIn) : ∃ m', loadReaction m.serialize = .ok m' ∧ m' = m ∧ m.Same m' := by
  refine ⟨m, ?_, rfl, fun _ _ _ _ => rfl⟩
  cases m with
  | constLgK p => simp [RxnModel.serialize, loadReaction, constLgK_round]
  | gemsLgK p => simp [RxnModel.serialize, loadReaction, gemsLgK_round]
  | phreeqcLgK p => simp [RxnModel.serialize, loadReaction, phreeqcLgK_round]
  | vantHoff p => simp [RxnModel.serialize, loadReaction, vantHoff_round]
  | pressureCorrection => exact hm.elim
  | chain => exact hm.elim

/-- **C71**, standard models : a saved standard model is read back as a model that gives the same properties, or fails in the same way,
at every temperature and pressure. -/
theorem C71_standard (m : StdModel) (hm : m.BuiltIn) : ∃ m', loadStandard m.serialize = .ok m' ∧ m'.key = m.key ∧ m.Same m' := by
  cases m with
  | constant p => exact ⟨.constant p, by simp [StdModel.serialize, loadStandard, constant_round], rfl, fun _ _ => rfl⟩
  | hkf p => exact ⟨.hkf { p with Tmax := 0 }, by simp [StdModel.serialize, loadStandard, hkf_round], rfl, fun _ _ => rfl⟩
  | hollandPowell p =>
    refine ⟨.hollandPowell (if p.kappa0 = 0 then { p with alpha0 := 0, kappa0p := 0, kappa0pp := 0, numatoms := 0 } else p),
      by simp [StdModel.serialize, loadStandard, hollandPowell_round], rfl, ?_⟩
    intro T P
    by_cases h : p.kappa0 = 0
    · simp [StdModel.eval, StandardModels.hollandPowell, h, StandardModels.HollandPowell.V, StandardModels.HollandPowell.VdP,
        StandardModels.HollandPowell.CpdT, StandardModels.HollandPowell.CpdlnT, StandardModels.HollandPowell.Cp]
    · simp [h]
  | maierKelley p => exact ⟨.maierKelley p, by simp [StdModel.serialize, loadStandard, maierKelley_round], rfl, fun _ _ => rfl⟩
  | mineral p => exact ⟨.mineral p, by simp [StdModel.serialize, loadStandard, mineral_round], rfl, fun _ _ => rfl⟩
  | water p => exact ⟨.water p, by simp [StdModel.serialize, loadStandard, water_round], rfl, fun _ _ => rfl⟩
  | other => exact hm.elim

/-- The parameters themselves are read back for all models but two : HKF and Holland–Powell without compressibility. -/
theorem C71_standard_params (m : StdModel) (hm : m.BuiltIn) (hkf : ∀ p, m = .hkf p → p.Tmax = 0)
    (hp : ∀ p, m = .hollandPowell p → p.kappa0 = 0 → p.alpha0 = 0 ∧ p.kappa0p = 0 ∧ p.kappa0pp = 0 ∧ p.numatoms = 0) :
    loadStandard m.serialize = .ok m := by
  cases m with
  | constant p => simp [StdModel.serialize, loadStandard, constant_round]
  | hkf p =>
    have := hkf p rfl
    simp only [StdModel.serialize, loadStandard]
    simp [hkf_round, ← this]
  | hollandPowell p =>
    have h := hp p rfl
    simp only [StdModel.serialize, loadStandard]
    by_cases h0 : p.kappa0 = 0
    · obtain ⟨h1, h2, h3, h4⟩ := h h0
      obtain ⟨⟨_, _, _, _, _, _, _, _, _, _, _, _, _⟩, _⟩ := p
      simp only at h0 h1 h2 h3 h4
      subst h0 h1 h2 h3 h4
      simp [hollandPowell_round]
    · simp [hollandPowell_round, h0]
  | maierKelley p => simp [StdModel.serialize, loadStandard, maierKelley_round]
  | mineral p => simp [StdModel.serialize, loadStandard, mineral_round]
  | water p => simp [StdModel.serialize, loadStandard, water_round]
  | other => exact hm.elim

/-- The parameter `Tmax` of an HKF model is lost : it is written and not read. -/
theorem C71_hkf_Tmax_wrong (p : HKFParams) (h : p.Tmax ≠ 0) :
    ∃ m', loadStandard (StdModel.hkf p).serialize = .ok m' ∧ m' ≠ .hkf p := by
  refine ⟨.hkf { p with Tmax := 0 }, by simp [StdModel.serialize, loadStandard, hkf_round], ?_⟩
  intro h'
  injection h' with h'
  exact h (congrArg HKFParams.Tmax h').symm

/-- Thermal expansion parameters given without compressibility are lost (they have no effect on the properties). -/
theorem C71_hollandPowell_params_wrong (p : HollandPowellParams) (h0 : p.kappa0 = 0) (h : p.alpha0 ≠ 0) :
    ∃ m', loadStandard (StdModel.hollandPowell p).serialize = .ok m' ∧ m' ≠ .hollandPowell p := by
  refine ⟨.hollandPowell (if p.kappa0 = 0 then { p with alpha0 := 0, kappa0p := 0, kappa0pp := 0, numatoms := 0 } else p),
    by simp [StdModel.serialize, loadStandard, hollandPowell_round], ?_⟩
  rw [if_pos h0]
  intro h'
  injection h' with h'
  exact h (congrArg (fun q : HollandPowellParams => q.alpha0) h').symm

/-- Models without serializer are written as nothing and cannot be read back : a chain of reaction models, even a chain of
one or of models that could be saved each, a pressure correction, and a standard model given as a function. -/
theorem C71_not_saved_wrong (models : List RxnModel) (Pr : ℝ) (f : ℝ → ℝ → Res StandardModels.Props) :
    loadReaction (RxnModel.chain models).serialize = .throw ∧ loadReaction (RxnModel.pressureCorrection Pr).serialize = .throw ∧
    loadStandard (StdModel.other f).serialize = .throw := ⟨rfl, rfl, rfl⟩

/-! ### Whatever is read comes from the file -/

private theorem bind_inv {α β : Type} {x : Res α} {f : α → Res β} {b : β} (h : x.bind f = .ok b) : ∃ a, x = .ok a ∧ f a = .ok b := by
  cases x with
  | ok a => exact ⟨a, rfl, h⟩
  | throw => simp [Res.bind] at h
  | ub => simp [Res.bind] at h

private theorem asNum_inv {c : Node} {x : ℝ} (h : asNum c = .ok x) : c = .num x ∨ ∃ n : Nat, c = .int n ∧ x = n := by
  cases c <;> simp_all [asNum]

private theorem child_some {node : Node} {key : Str} {c : Node} (h : child node key = .ok (some c)) :
    ∃ l, node = .map l ∧ l.find? (fun p => p.1 = key) = some (key, c) := by
  cases node with
  | map l =>
    refine ⟨l, rfl, ?_⟩
    simp only [child, Res.ok.injEq, Option.map_eq_some_iff] at h
    obtain ⟨⟨k, c'⟩, h1, h2⟩ := h
    have := List.find?_some h1
    simp only [decide_eq_true_eq] at this
    subst this h2
    exact h1
  | _ => simp [child] at h

private theorem child_none {node : Node} {key : Str} (h : child node key = .ok none) : Absent node key := by
  intro l hl c hc
  subst hl
  simp only [child, Res.ok.injEq, Option.map_eq_none_iff] at h
  have := List.find?_eq_none.1 h _ hc
  simp at this

private theorem at_inv {node : Node} {key : Str} {c : Node} (h : at' node key = .ok c) : child node key = .ok (some c) := by
  obtain ⟨a, h1, h2⟩ := bind_inv h
  cases a with
  | none => simp at h2
  | some a => simp at h2; rw [h1, h2]

private theorem reqNum_inv {node : Node} {key : Str} {x : ℝ} (h : reqNum node key = .ok x) : HasNum node key x := by
  obtain ⟨c, h1, h2⟩ := bind_inv h
  obtain ⟨l, hl, hf⟩ := child_some (at_inv h1)
  exact ⟨l, hl, c, hf, asNum_inv h2⟩

private theorem reqNat_inv {node : Node} {key : Str} {n : Nat} (h : reqNat node key = .ok n) : HasNum node key n := by
  obtain ⟨c, h1, h2⟩ := bind_inv h
  obtain ⟨l, hl, hf⟩ := child_some (at_inv h1)
  refine ⟨l, hl, c, hf, .inr ⟨n, ?_, rfl⟩⟩
  cases c <;> simp_all [asNat]

private theorem optNum_inv {node : Node} {key : Str} {d x : ℝ} (h : optNum node key d = .ok x) : HasNumOr node key d x := by
  obtain ⟨c, h1, h2⟩ := bind_inv h
  cases c with
  | none => exact .inr ⟨by simp at h2; exact h2.symm, child_none h1⟩
  | some c =>
    obtain ⟨l, hl, hf⟩ := child_some h1
    exact .inl ⟨l, hl, c, hf, asNum_inv h2⟩

private theorem go_inv : ∀ (cs : List Node) (xs : List ℝ), asNums.go cs = .ok xs →
    List.Forall₂ (fun (c : Node) (x : ℝ) => c = .num x ∨ ∃ n : Nat, c = .int n ∧ x = n) cs xs
  | [], xs, h => by simp [asNums.go] at h; subst h; exact .nil
  | c :: cs, xs, h => by
    obtain ⟨x, h1, h2⟩ := bind_inv h
    obtain ⟨ys, h3, h4⟩ := bind_inv h2
    simp at h4
    subst h4
    exact .cons (asNum_inv h1) (go_inv cs ys h3)

private theorem reqNums_inv {node : Node} {key : Str} {xs : List ℝ} (h : reqNums node key = .ok xs) : HasNums node key xs := by
  obtain ⟨c, h1, h2⟩ := bind_inv h
  obtain ⟨l, hl, hf⟩ := child_some (at_inv h1)
  cases c with
  | seq cs => exact ⟨l, hl, cs, hf, go_inv cs xs h2⟩
  | _ => simp [asNums] at h2

/-- **C71**, loading reaction models : a model is made only from a map with one known name, and every parameter of it is the
number written under its name, or for the reference temperature and pressure the default value if nothing is written. -/
theorem C71_reaction_read (node : Node) (m : RxnModel) (h : loadReaction node = .ok m) :
    ∃ params, node = .map [(m.key, params)] ∧ m.ReadFrom params := by
  unfold loadReaction at h
  split at h
  · rename_i model params
    split at h
    · rename_i hk
      obtain ⟨p, hd, he⟩ := bind_inv h
      clear h; have h := hd; clear hd
      simp only [Res.ok.injEq] at he; subst he hk
      refine ⟨params, rfl, ?_⟩
      unfold ConstLgK.decode at h
      obtain ⟨x1, h1, h⟩ := bind_inv h
      obtain ⟨x2, h2, h⟩ := bind_inv h
      simp only [Res.ok.injEq] at h; subst h
      exact ⟨reqNum_inv h1, optNum_inv h2⟩
    · split at h
      · rename_i hk
        obtain ⟨p, hd, he⟩ := bind_inv h
        clear h; have h := hd; clear hd
        simp only [Res.ok.injEq] at he; subst he hk
        refine ⟨params, rfl, ?_⟩
        unfold GemsLgK.decode at h
        obtain ⟨x0, h0, h⟩ := bind_inv h
        obtain ⟨x1, h1, h⟩ := bind_inv h
        obtain ⟨x2, h2, h⟩ := bind_inv h
        obtain ⟨x3, h3, h⟩ := bind_inv h
        obtain ⟨x4, h4, h⟩ := bind_inv h
        obtain ⟨x5, h5, h⟩ := bind_inv h
        obtain ⟨x6, h6, h⟩ := bind_inv h
        obtain ⟨x7, h7, h⟩ := bind_inv h
        simp only [Res.ok.injEq] at h; subst h
        exact ⟨reqNum_inv h0, reqNum_inv h1, reqNum_inv h2, reqNum_inv h3, reqNum_inv h4, reqNum_inv h5, reqNum_inv h6, optNum_inv h7⟩
      · split at h
        · rename_i hk
          obtain ⟨p, hd, he⟩ := bind_inv h
          clear h; have h := hd; clear hd
          simp only [Res.ok.injEq] at he; subst he hk
          refine ⟨params, rfl, ?_⟩
          unfold PhreeqcLgK.decode at h
          obtain ⟨x1, h1, h⟩ := bind_inv h
          obtain ⟨x2, h2, h⟩ := bind_inv h
          obtain ⟨x3, h3, h⟩ := bind_inv h
          obtain ⟨x4, h4, h⟩ := bind_inv h
          obtain ⟨x5, h5, h⟩ := bind_inv h
          obtain ⟨x6, h6, h⟩ := bind_inv h
          obtain ⟨x7, h7, h⟩ := bind_inv h
          simp only [Res.ok.injEq] at h; subst h
          exact ⟨reqNum_inv h1, reqNum_inv h2, reqNum_inv h3, reqNum_inv h4, reqNum_inv h5, reqNum_inv h6, optNum_inv h7⟩
        · split at h
          · rename_i hk
            obtain ⟨p, hd, he⟩ := bind_inv h
            clear h; have h := hd; clear hd
            simp only [Res.ok.injEq] at he; subst he hk
            refine ⟨params, rfl, ?_⟩
            unfold VantHoff.decode at h
            obtain ⟨x1, h1, h⟩ := bind_inv h
            obtain ⟨x2, h2, h⟩ := bind_inv h
            obtain ⟨x3, h3, h⟩ := bind_inv h
            obtain ⟨x4, h4, h⟩ := bind_inv h
            simp only [Res.ok.injEq] at h; subst h
            exact ⟨reqNum_inv h1, reqNum_inv h2, optNum_inv h3, optNum_inv h4⟩
          · simp at h
  · simp at h

private theorem expansion_inv {node : Node} {e : ℝ × ℝ × ℝ × ℝ × ℝ} (h : decodeExpansion node = .ok e) :
    HasNum node c!"kappa0" e.2.1 ∧ HasNum node c!"alpha0" e.1 ∧ HasNum node c!"kappa0p" e.2.2.1 ∧
      HasNum node c!"kappa0pp" e.2.2.2.1 ∧ HasNum node c!"numatoms" e.2.2.2.2 ∨ Absent node c!"kappa0" ∧ e.2.1 = 0 := by
  unfold decodeExpansion at h
  obtain ⟨c, hc, h⟩ := bind_inv h
  cases c with
  | none =>
    simp only [Res.ok.injEq] at h; subst h
    exact .inr ⟨child_none hc, rfl⟩
  | some c =>
    obtain ⟨x1, h1, h⟩ := bind_inv h
    obtain ⟨x2, h2, h⟩ := bind_inv h
    obtain ⟨x3, h3, h⟩ := bind_inv h
    obtain ⟨x4, h4, h⟩ := bind_inv h
    obtain ⟨x5, h5, h⟩ := bind_inv h
    simp only [Res.ok.injEq] at h; subst h
    exact .inl ⟨reqNum_inv h2, reqNum_inv h1, reqNum_inv h3, reqNum_inv h4, reqNum_inv h5⟩

/-- **C71**, loading standard models : a model is made only from a map with one known name, and every parameter of it is the
number (or sequence of numbers) written under its name, or zero where the name may be left out. -/
theorem C71_standard_read (node : Node) (m : StdModel) (h : loadStandard node = .ok m) :
    ∃ params, node = .map [(m.key, params)] ∧ m.ReadFrom params := by
  unfold loadStandard at h
  split at h
  · rename_i model params
    split at h
    · rename_i hk
      obtain ⟨p, hd, he⟩ := bind_inv h
      clear h; have h := hd; clear hd
      simp only [Res.ok.injEq] at he; subst he hk
      refine ⟨params, rfl, ?_⟩
      unfold decodeConstant at h
      obtain ⟨x1, h1, h⟩ := bind_inv h
      obtain ⟨x2, h2, h⟩ := bind_inv h
      obtain ⟨x3, h3, h⟩ := bind_inv h
      obtain ⟨x4, h4, h⟩ := bind_inv h
      obtain ⟨x5, h5, h⟩ := bind_inv h
      simp only [Res.ok.injEq] at h; subst h
      exact ⟨reqNum_inv h1, optNum_inv h2, optNum_inv h3, optNum_inv h4, optNum_inv h5⟩
    · split at h
      · rename_i hk
        obtain ⟨p, hd, he⟩ := bind_inv h
        clear h; have h := hd; clear hd
        simp only [Res.ok.injEq] at he; subst he hk
        refine ⟨params, rfl, ?_⟩
        unfold HKFParams.decode at h
        obtain ⟨x0, h0, h⟩ := bind_inv h
        obtain ⟨x1, h1, h⟩ := bind_inv h
        obtain ⟨x2, h2, h⟩ := bind_inv h
        obtain ⟨x3, h3, h⟩ := bind_inv h
        obtain ⟨x4, h4, h⟩ := bind_inv h
        obtain ⟨x5, h5, h⟩ := bind_inv h
        obtain ⟨x6, h6, h⟩ := bind_inv h
        obtain ⟨x7, h7, h⟩ := bind_inv h
        obtain ⟨x8, h8, h⟩ := bind_inv h
        obtain ⟨x9, h9, h⟩ := bind_inv h
        obtain ⟨x10, h10, h⟩ := bind_inv h
        simp only [Res.ok.injEq] at h; subst h
        exact ⟨reqNum_inv h0, reqNum_inv h1, reqNum_inv h2, reqNum_inv h3, reqNum_inv h4, reqNum_inv h5, reqNum_inv h6, reqNum_inv h7,
          reqNum_inv h8, reqNum_inv h9, reqNum_inv h10⟩
      · split at h
        · rename_i hk
          obtain ⟨p, hd, he⟩ := bind_inv h
          clear h; have h := hd; clear hd
          simp only [Res.ok.injEq] at he; subst he hk
          refine ⟨params, rfl, ?_⟩
          unfold HollandPowellParams.decode at h
          obtain ⟨x1, h1, h⟩ := bind_inv h
          obtain ⟨x2, h2, h⟩ := bind_inv h
          obtain ⟨x3, h3, h⟩ := bind_inv h
          obtain ⟨x4, h4, h⟩ := bind_inv h
          obtain ⟨x5, h5, h⟩ := bind_inv h
          obtain ⟨x6, h6, h⟩ := bind_inv h
          obtain ⟨x7, h7, h⟩ := bind_inv h
          obtain ⟨x8, h8, h⟩ := bind_inv h
          obtain ⟨e, h9, h⟩ := bind_inv h
          obtain ⟨x10, h10, h⟩ := bind_inv h
          simp only [Res.ok.injEq] at h; subst h
          exact ⟨reqNum_inv h1, reqNum_inv h2, reqNum_inv h3, reqNum_inv h4, reqNum_inv h5, reqNum_inv h6, reqNum_inv h7, reqNum_inv h8,
            reqNum_inv h10, expansion_inv h9⟩
        · split at h
          · rename_i hk
            obtain ⟨p, hd, he⟩ := bind_inv h
            clear h; have h := hd; clear hd
            simp only [Res.ok.injEq] at he; subst he hk
            refine ⟨params, rfl, ?_⟩
            unfold MaierKelleyParams.decode at h
            obtain ⟨x1, h1, h⟩ := bind_inv h
            obtain ⟨x2, h2, h⟩ := bind_inv h
            obtain ⟨x3, h3, h⟩ := bind_inv h
            obtain ⟨x4, h4, h⟩ := bind_inv h
            obtain ⟨x5, h5, h⟩ := bind_inv h
            obtain ⟨x6, h6, h⟩ := bind_inv h
            obtain ⟨x7, h7, h⟩ := bind_inv h
            obtain ⟨x8, h8, h⟩ := bind_inv h
            simp only [Res.ok.injEq] at h; subst h
            exact ⟨reqNum_inv h1, reqNum_inv h2, reqNum_inv h3, reqNum_inv h4, reqNum_inv h5, reqNum_inv h6, reqNum_inv h7, reqNum_inv h8⟩
          · split at h
            · rename_i hk
              obtain ⟨p, hd, he⟩ := bind_inv h
              clear h; have h := hd; clear hd
              simp only [Res.ok.injEq] at he; subst he hk
              refine ⟨params, rfl, ?_⟩
              unfold MineralParams.decode at h
              obtain ⟨x1, h1, h⟩ := bind_inv h
              obtain ⟨x2, h2, h⟩ := bind_inv h
              obtain ⟨x3, h3, h⟩ := bind_inv h
              obtain ⟨x4, h4, h⟩ := bind_inv h
              obtain ⟨x5, h5, h⟩ := bind_inv h
              obtain ⟨x6, h6, h⟩ := bind_inv h
              obtain ⟨x7, h7, h⟩ := bind_inv h
              obtain ⟨x8, h8, h⟩ := bind_inv h
              obtain ⟨x9, h9, h⟩ := bind_inv h
              obtain ⟨x10, h10, h⟩ := bind_inv h
              obtain ⟨x11, h11, h⟩ := bind_inv h
              obtain ⟨x12, h12, h⟩ := bind_inv h
              obtain ⟨x13, h13, h⟩ := bind_inv h
              simp only [Res.ok.injEq] at h; subst h
              exact ⟨reqNum_inv h1, reqNum_inv h2, reqNum_inv h3, reqNum_inv h4, reqNat_inv h5, reqNums_inv h6, reqNums_inv h7,
                reqNums_inv h8, reqNums_inv h9, reqNums_inv h10, reqNums_inv h11, reqNums_inv h12, reqNum_inv h13⟩
            · split at h
              · rename_i hk
                obtain ⟨p, hd, he⟩ := bind_inv h
                clear h; have h := hd; clear hd
                simp only [Res.ok.injEq] at he; subst he hk
                refine ⟨params, rfl, ?_⟩
                unfold decodeWater at h
                obtain ⟨x1, h1, h⟩ := bind_inv h
                obtain ⟨x2, h2, h⟩ := bind_inv h
                obtain ⟨x3, h3, h⟩ := bind_inv h
                obtain ⟨x4, h4, h⟩ := bind_inv h
                simp only [Res.ok.injEq] at h; subst h
                exact ⟨reqNum_inv h1, reqNum_inv h2, reqNum_inv h3, reqNum_inv h4⟩
              · simp at h
  · simp at h

/-! ### Examples -/

/-- A van 't Hoff model away from the default reference state, and a mineral with one phase transition, are saved and read back. -/
example : loadReaction (RxnModel.vantHoff ⟨-8.48, -10000, 300, 200000⟩).serialize = .ok (.vantHoff ⟨-8.48, -10000, 300, 200000⟩) ∧
    loadStandard (.map [(c!"Constant", .map [(c!"G0", .num 5), (c!"V0", .num 2)])]) = .ok (.constant ⟨5, 0, 2, 0, 0⟩) ∧
    loadStandard (.map [(c!"Constant", .map [(c!"V0", .num 2)])]) = .throw ∧
    loadStandard (.map [(c!"Shomate", .map [])]) = .throw := by
  refine ⟨(C71_reaction (.vantHoff ⟨-8.48, -10000, 300, 200000⟩) trivial).elim fun m' h => h.2.1 ▸ h.1, ?_, ?_, ?_⟩ <;>
    simp [loadStandard, decodeConstant, reqNum, optNum, at', child, asNum, Res.bind]

/-- An HKF model with a maximum temperature : the hypotheses of `C71_standard` and of `C71_hkf_Tmax_wrong` hold. -/
example : ∃ p : HKFParams, (StdModel.hkf p).BuiltIn ∧ p.Tmax ≠ 0 ∧
    ∃ m', loadStandard (StdModel.hkf p).serialize = .ok m' ∧ (StdModel.hkf p).Same m' ∧ m' ≠ .hkf p := by
  let p : HKFParams := { Gf := -1, Hf := -2, Sr := 3, a1 := 4, a2 := 5, a3 := 6, a4 := 7, c1 := 8, c2 := 9, wref := 10, charge := 1, Tmax := 1000 }
  have hT : p.Tmax ≠ 0 := by show (1000 : ℝ) ≠ 0; norm_num
  obtain ⟨m', h1, _, h2⟩ := C71_standard (.hkf p) trivial
  obtain ⟨m'', h3, h4⟩ := C71_hkf_Tmax_wrong p hT
  rw [h1] at h3
  injection h3 with h3
  exact ⟨p, trivial, hT, m', h1, h2, h3 ▸ h4⟩

end Verif.ModelsYAML
