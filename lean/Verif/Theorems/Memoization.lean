import Verif.Lemmas.Memoization

/-!
# Theorems C01–C04: memoization is invisible

`plain f n ops` (in `Verif.Spec.Memoization`) is what the program observes without memoization.
-/

namespace Verif.Memo

variable {A : Type u} {R : Type v}

/-- **C01.** For every function that does not throw and every program (any history of enable, disable, copies of the
closure and calls), the observations with `memoizeLast` are those of the plain function.
`same` is the comparison of arguments; all it must satisfy is that equal arguments have equal results. -/
theorem C01_memoizeLast_invisible (f : A → Res R) (same : A → A → Bool) (a0 : A) (r0 : R)
    (hsame : ∀ a b, same a b = true → f a = f b)
    (hf : ∀ a, (f a).isOk = true) (ops : List (Op A)) :
    runLast f same a0 r0 ops = plain f 1 ops := by
  apply agreeOn_true (ops := ops)
  exact run_agree (callLast f same) f (fun _ => True) (fun _ c => Good f same (fun _ => True) c)
    (fun _ h => h) (fun _ h => h) (fun e c a h => callLast_good f same _ hsame (fun a _ => hf a) e c a h)
    ops (World.init a0 r0) (by
      intro c hc
      simp only [World.init, List.mem_singleton] at hc
      subst hc
      intro h; simp [Cell.init] at h)

example : (∀ a b : Nat, (a == b) = true → (fun n => Res.ok (n + 1)) a = (fun n => Res.ok (n + 1)) b) ∧
    (∀ a : Nat, ((fun n => Res.ok (n + 1)) a).isOk = true) ∧
    runLast (fun n : Nat => Res.ok (n + 1)) (· == ·) 0 0
      [.call 0 3, .copy 0, .disable, .call 1 4, .enable, .call 1 3, .call 0 0] =
      [some (.ok 4), none, none, some (.ok 5), none, some (.ok 4), some (.ok 1)] := by
  refine ⟨?_, ?_, by decide⟩
  · intro a b h; simp only [beq_iff_eq] at h; simp [h]
  · intro a; rfl

/-- **C02 (partial).** Full statement: `runLast f same a0 r0 ops = plain f 1 ops` also when `f` may throw; it is false
(`C02_memoizeLast_throw_then_stale`). What holds: in every program, including those with calls that throw, every call
whose argument does not make `f` throw is answered as by the plain function. Missing: calls with arguments that make `f` throw. -/
theorem C02_memoizeLast_nonthrowing_calls_partial (f : A → Res R) (same : A → A → Bool) (a0 : A) (r0 : R)
    (hsame : ∀ a b, same a b = true → f a = f b) (ops : List (Op A)) :
    AgreeOn (fun a => (f a).isOk = true) ops (runLast f same a0 r0 ops) (plain f 1 ops) :=
  run_agree (callLast f same) f (fun a => (f a).isOk = true) (fun _ c => Good f same (fun a => (f a).isOk = true) c)
    (fun _ h => h) (fun _ h => h) (fun e c a h => callLast_good f same _ hsame (fun _ h => h) e c a h)
    ops (World.init a0 r0) (by
      intro c hc
      simp only [World.init, List.mem_singleton] at hc
      subst hc
      intro h; simp [Cell.init] at h)

/-- **C02 is false of the code.** A call that throws, repeated with the same arguments, returns a value instead of
throwing: the result of an earlier call with other arguments. Here `f 1` throws and `f n = n + 10` otherwise. -/
theorem C02_memoizeLast_throw_then_stale :
    ∃ (f : Nat → Res Nat) (ops : List (Op Nat)),
      runLast f (· == ·) 0 0 ops = [some (.ok 12), some .throw, some (.ok 12)] ∧
      plain f 1 ops = [some (.ok 12), some .throw, some .throw] :=
  ⟨fun n => if n = 1 then .throw else .ok (n + 10), [.call 0 2, .call 0 1, .call 0 1], by decide⟩

example : ∀ a b : Nat, (a == b) = true →
    (fun n => if n = 1 then Res.throw else Res.ok (n + 10)) a = (fun n => if n = 1 then Res.throw else Res.ok (n + 10)) b := by
  intro a b h; simp only [beq_iff_eq] at h; simp [h]

/-- **C03.** For every function, throwing or not, and every program, the observations with `memoize` are those of the plain
function. -/
theorem C03_memoize_invisible [DecidableEq A] (f : A → Res R) (ops : List (Op A)) :
    (runMap f MapWorld.init ops).2 = plain f 1 ops :=
  (runMap_spec f ops MapWorld.init ⟨by simp [MapWorld.init], by simp [MapWorld.init], by simp [MapWorld.init]⟩).1

/-- **C03.** While enabled, `memoize` evaluates `f` successfully at most once per argument in the whole program. -/
theorem C03_memoize_evaluates_once [DecidableEq A] (f : A → Res R) (ops : List (Op A)) :
    (runMap f MapWorld.init ops).1.log.Nodup :=
  (runMap_spec f ops MapWorld.init ⟨by simp [MapWorld.init], by simp [MapWorld.init], by simp [MapWorld.init]⟩).2.2.1

example : runMap (fun n : Nat => if n = 1 then Res.throw else Res.ok (n + 10)) MapWorld.init
    [.call 0 2, .call 0 1, .copy 0, .call 1 1, .call 1 2, .call 0 3] =
    ({ enabled := true, cache := [(3, 13), (2, 12)], copies := 2, log := [3, 2] },
      [some (.ok 12), some .throw, none, some .throw, some (.ok 12), some (.ok 13)]) := rfl

/-- **C04 (partial).** Full statement: `runRef f same a0 r0 ops = plain f 1 ops` for every program; it is false
(`C04_memoizeLastUsingRef_stale_default`). What holds in every program: every call whose arguments differ from the
default-constructed arguments `a0` is answered (or throws) as by the plain function. -/
theorem C04_memoizeLastUsingRef_nondefault_partial (f : A → Res R) (same : A → A → Bool) (a0 : A) (r0 : R)
    (hsame : ∀ a b, same a b = true → f a = f b) (ops : List (Op A)) :
    AgreeOn (fun a => same a0 a = false) ops (runRef f same a0 r0 ops) (plain f 1 ops) :=
  run_agree (callRef f same) f (fun a => same a0 a = false)
    (fun _ c => (same c.cache = same a0) ∨ ∀ b, same c.cache b = true → f b = .ok c.result)
    (fun _ h => h) (fun _ h => h) (fun e c a h => callRef_good f same a0 hsame e c a h)
    ops (World.init a0 r0) (by
      intro c hc
      simp only [World.init, List.mem_singleton] at hc
      subst hc
      left; rfl)

/-- **C04 (partial).** Programs that never disable memoization: all calls are answered (or throw) as by the plain
function, including calls with default arguments. -/
theorem C04_memoizeLastUsingRef_always_enabled_partial (f : A → Res R) (same : A → A → Bool) (a0 : A) (r0 : R)
    (hsame : ∀ a b, same a b = true → f a = f b) (ops : List (Op A)) (hops : Op.disable ∉ ops) :
    runRef f same a0 r0 ops = plain f 1 ops :=
  run_agree_enabled (callRef f same) f (fun c => c.first = false → ∀ b, same c.cache b = true → f b = .ok c.result)
    (fun c a h => callRef_good_enabled f same hsame c a h) ops hops (World.init a0 r0) rfl (by
      intro c hc
      simp only [World.init, List.mem_singleton] at hc
      subst hc
      intro h; simp [Cell.init] at h)

/-- **C04 is false of the code.** If the first call happens while memoization is disabled, a later call with
default-constructed arguments returns the default-constructed result instead of calling the function. -/
theorem C04_memoizeLastUsingRef_stale_default :
    ∃ (f : Nat → Res Nat) (ops : List (Op Nat)),
      runRef f (· == ·) 0 0 ops = [none, some (.ok 13), none, some (.ok 0)] ∧
      plain f 1 ops = [none, some (.ok 13), none, some (.ok 10)] :=
  ⟨fun n => .ok (n + 10), [.disable, .call 0 3, .enable, .call 0 0], by decide⟩

example : Op.disable ∉ [Op.call 0 3, .copy 0, .enable, .call 1 (0 : Nat)] ∧
    runRef (fun n : Nat => Res.ok (n + 10)) (· == ·) 0 0 [.call 0 3, .copy 0, .enable, .call 1 0] =
      [some (.ok 13), none, none, some (.ok 10)] := by decide

end Verif.Memo
