import Verif.Model.RunReport
import Verif.Props.Coupled

/-!
# C226: the report of the command run-en
-/

namespace Pyensys

/-- the sum over periods and instances, without weights -/
def plainSum (noInst noTime : Nat) (f : Nat → Nat → Rat) : Rat := ((List.range noInst).map (fun h => ((List.range noTime).map (fun t => f h t)).sum)).sum

theorem rrLoop_sum (noInst noTime : Nat) (f : Nat → Nat → Rat) : rrLoop noInst noTime f = plainSum noInst noTime f := by
  unfold rrLoop plainSum
  have h1 : ∀ (l : List Nat) (g : Nat → Rat) (v : Rat), l.foldl (fun value t => value + g t) v = v + (l.map g).sum := by
    intro l g
    induction l with
    | nil => intro v; simp
    | cons a l ih =>
      intro v
      rw [List.foldl_cons, ih, List.map_cons, List.sum_cons]
      ring
  have h2 : (fun (value : Rat) (xh : Nat) => (List.range noTime).foldl (fun value xt => value + f xh xt) value) = fun value xh => value + ((List.range noTime).map (fun t => f xh t)).sum := by
    funext value xh
    exact h1 _ _ _
  rw [h2, h1, zero_add]

theorem range_sum_single (n k : Nat) (hk : k < n) (q : Rat) : ((List.range n).map (fun i => if i = k then q else 0)).sum = q := by
  induction n with
  | zero => omega
  | succ n ih =>
    rw [List.range_succ, List.map_append, List.sum_append]
    rcases Nat.lt_succ_iff_lt_or_eq.mp hk with h | h
    · rw [ih h]
      have : ¬ n = k := by omega
      simp [this]
    · subst h
      have : ((List.range k).map (fun i => if i = k then q else 0)).sum = 0 := by
        apply List.sum_eq_zero
        intro y hy
        obtain ⟨i, hi, rfl⟩ := List.mem_map.mp hy
        rw [List.mem_range] at hi
        rw [if_neg (by omega)]
      rw [this]
      simp

theorem plainSum_single (m n i j : Nat) (hi : i < m) (hj : j < n) (q : Rat) : plainSum m n (fun h t => if h = i then (if t = j then q else 0) else 0) = q := by
  unfold plainSum
  have : (fun h : Nat => ((List.range n).map (fun t => if h = i then (if t = j then q else 0) else 0)).sum) = fun h => if h = i then q else 0 := by
    funext h
    by_cases hh : h = i
    · simp only [hh, if_true]
      exact range_sum_single n j hj q
    · simp [hh]
  rw [this, range_sum_single m i hi]

/-- the weight of a period of an instance -/
def rrWeight (x : ApiData) (h t : Nat) : Rat := (x.ofaux[h]?).getD 0 * (x.weights[t]?).getD 0

theorem total_plain {x : ApiData} (g : Nat → Nat → Rat) : x.total {} g = plainSum x.noInst x.noTime (fun h t => rrWeight x h t * (g h t * x.base)) := by
  unfold ApiData.total plainSum ApiData.scensOf ApiData.timesOf
  simp only [Option.getD_none]
  rw [← List.sum_map_mul_right]
  congr 1
  apply List.map_congr_left
  intro h _
  rw [← List.sum_map_mul_left, ← List.sum_map_mul_right]
  congr 1
  apply List.map_congr_left
  intro t _
  unfold rrWeight ApiData.scenWeight ApiData.timeWeight
  simp
  ring

theorem argsOk_default {x : ApiData} (hw : x.weights.length = x.noTime) (ho : x.ofaux.length = x.noInst) : ArgsOk x {} :=
  ⟨hw, ho, fun t ht => by simpa [ApiData.timesOf] using ht, fun h hh => by simpa [ApiData.scensOf] using hh⟩

theorem getPump_total {x : ApiData} (v : ApiVals) (hw : x.weights.length = x.noTime) (ho : x.ofaux.length = x.noInst) (k : Nat) (hk : k < x.sizes.noPump) :
    getPump x v {} (k + 1) = .ok (plainSum x.noInst x.noTime (fun h t => rrWeight x h t * (v.pump (h * (x.sizes.noPump + 1) + (k + 1)) t * x.base))) := by
  rw [← total_plain]
  unfold getPump
  refine run_spec (argsOk_default hw ho) ?_
  intro h hh t _
  exact var_ok (f := .pump) ⟨by decide, by decide, by decide⟩ ((argsOk_default hw ho).scens h hh) (by simp only [familySize]; omega)

/-- C226: without renewables, the report with Pyomo gives for every pump its energy, weighted by the hours and the weights of the instances, and the curtailment -/
theorem C226_pyomo_partial (x : ApiData) (v : ApiVals) (hw : x.weights.length = x.noTime) (ho : x.ofaux.length = x.noInst) (c : Rat × Rat × Rat) (hc : getAllCurtailment x v {} = .ok c) :
    rrPyomo x v 0 = .ok ((List.range x.sizes.noPump).map (fun k => plainSum x.noInst x.noTime (fun h t => rrWeight x h t * (v.pump (h * (x.sizes.noPump + 1) + (k + 1)) t * x.base))), [], c) := by
  unfold rrPyomo
  have hp : (List.range x.sizes.noPump).mapM (fun xp => getPump x v {} (xp + 1)) = .ok ((List.range x.sizes.noPump).map (fun k => plainSum x.noInst x.noTime (fun h t => rrWeight x h t * (v.pump (h * (x.sizes.noPump + 1) + (k + 1)) t * x.base)))) := by
    have : ∀ l : List Nat, (∀ k ∈ l, k < x.sizes.noPump) → l.mapM (fun xp => getPump x v {} (xp + 1)) = .ok (l.map (fun k => plainSum x.noInst x.noTime (fun h t => rrWeight x h t * (v.pump (h * (x.sizes.noPump + 1) + (k + 1)) t * x.base)))) := by
      intro l
      induction l with
      | nil => intro _; rfl
      | cons k l ih =>
        intro hl
        rw [List.mapM_cons, getPump_total v hw ho k (hl k (by simp)), ih (fun j hj => hl j (by simp [hj]))]
        rfl
    exact this _ (fun k hk => List.mem_range.mp hk)
  rw [hp]
  rw [hc]
  rfl

/-- C226, violated: if there is a renewable unit, the report with Pyomo ends with an error before the curtailment is given -/
theorem C226_violated_renewables (x : ApiData) (v : ApiVals) (n : Nat) (r : List Rat × List Rat × (Rat × Rat × Rat)) : rrPyomo x v (n + 1) ≠ .ok r := by
  intro h
  unfold rrPyomo at h
  cases hp : (List.range x.sizes.noPump).mapM (fun xp => getPump x v {} (xp + 1)) with
  | error e => rw [hp] at h; cases h
  | ok p =>
    rw [hp] at h
    have hr : (List.range (n + 1)).mapM (fun _ => rrRes) = .error .type := by
      rw [List.range_succ_eq_map, List.mapM_cons]
      rfl
    have : ((List.range (n + 1)).mapM (fun _ => rrRes) >>= fun r => getAllCurtailment x v {} >>= fun c => (.ok (p, r, c) : Except PyErr (List Rat × List Rat × (Rat × Rat × Rat)))) = .ok r := h
    rw [hr] at this
    cases this

/-- C226, violated: for the same operation of the pumps the report with GLPK gives the same energy as that with Pyomo only if every period of every instance has weight 1 -/
theorem C226_violated_weights (x : ApiData) (hw : x.weights.length = x.noTime) (ho : x.ofaux.length = x.noInst) (hb : x.base ≠ 0) (k : Nat) (hk : k < x.sizes.noPump) :
    (∀ v : ApiVals, getPump x v {} (k + 1) = .ok (((rrPumps x.noInst x.noTime x.sizes.noPump (fun h t xp => v.pump (h * (x.sizes.noPump + 1) + (xp + 1)) t * x.base))[k]?).getD 0)) ↔
      ∀ h t : Nat, h < x.noInst → t < x.noTime → rrWeight x h t = 1 := by
  have hget : ∀ v : ApiVals, ((rrPumps x.noInst x.noTime x.sizes.noPump (fun h t xp => v.pump (h * (x.sizes.noPump + 1) + (xp + 1)) t * x.base))[k]?).getD 0 = plainSum x.noInst x.noTime (fun h t => v.pump (h * (x.sizes.noPump + 1) + (k + 1)) t * x.base) := by
    intro v
    unfold rrPumps
    rw [List.getElem?_map, List.getElem?_range hk]
    simp only [Option.map_some, Option.getD_some]
    exact rrLoop_sum _ _ _
  constructor
  · intro h i j hi hj
    have h1 := h ⟨fun _ _ => 0, fun p t => if p / (x.sizes.noPump + 1) = i then (if t = j then x.base⁻¹ else 0) else 0, fun _ _ => 0⟩
    rw [hget, getPump_total _ hw ho k hk] at h1
    injection h1 with h1
    have hdiv : ∀ h : Nat, (h * (x.sizes.noPump + 1) + (k + 1)) / (x.sizes.noPump + 1) = h := by
      intro h
      rw [Nat.mul_comm, Nat.mul_add_div (by omega), Nat.div_eq_of_lt (by omega), Nat.add_zero]
    simp only [hdiv] at h1
    have e1 : (fun h t : Nat => rrWeight x h t * ((if h = i then (if t = j then x.base⁻¹ else 0) else 0) * x.base)) = fun h t => if h = i then (if t = j then rrWeight x i j else 0) else 0 := by
      funext h t
      by_cases hh : h = i
      · by_cases ht : t = j
        · simp [hh, ht, hb]
        · simp [ht]
      · simp [hh]
    have e2 : (fun h t : Nat => (if h = i then (if t = j then x.base⁻¹ else 0) else 0) * x.base) = fun h t => if h = i then (if t = j then 1 else 0) else 0 := by
      funext h t
      by_cases hh : h = i
      · by_cases ht : t = j
        · simp [hh, ht, hb]
        · simp [ht]
      · simp [hh]
    rw [e1, e2, plainSum_single _ _ _ _ hi hj, plainSum_single _ _ _ _ hi hj] at h1
    exact h1
  · intro h v
    rw [hget, getPump_total v hw ho k hk]
    congr 1
    unfold plainSum
    congr 1
    apply List.map_congr_left
    intro i hi
    congr 1
    apply List.map_congr_left
    intro j hj
    rw [List.mem_range] at hi hj
    beta_reduce
    rw [h i j hi hj, one_mul]

/-- C226: with GLPK the figure of a renewable unit is what it could have produced less what it produced, over all periods, without weights -/
theorem C226_spill_partial (noInst noTime noRES : Nat) (base : Rat) (cap : Nat → Rat) (profile gen : Nat → Nat → Nat → Rat) (k : Nat) (hk : k < noRES) :
    (rrSpill noInst noTime noRES base cap profile gen)[k]? = some (plainSum noInst noTime (fun h t => cap k * profile h t k * base) - plainSum noInst noTime (fun h t => gen h t k)) := by
  unfold rrSpill
  rw [List.getElem?_map, List.getElem?_range hk, Option.map_some, rrLoop_sum]
  congr 1
  unfold plainSum
  have hsub : ∀ (l : List Nat) (a b : Nat → Rat), (l.map (fun i => a i - b i)).sum = (l.map a).sum - (l.map b).sum := by
    intro l a b
    induction l with
    | nil => simp
    | cons i l ih => rw [List.map_cons, List.map_cons, List.map_cons, List.sum_cons, List.sum_cons, List.sum_cons, ih]; ring
  have : (fun h : Nat => ((List.range noTime).map (fun t => cap k * profile h t k * base - gen h t k)).sum) = fun h => ((List.range noTime).map (fun t => cap k * profile h t k * base)).sum - ((List.range noTime).map (fun t => gen h t k)).sum := by
    funext h
    exact hsub _ _ _
  rw [this]
  exact hsub _ _ _

/-- C226, violated: with GLPK the curtailment of contingencies is added: the same curtailment in all cases counts once per case -/
theorem C226_violated_contingencies (noInst noTime cont noBus : Nat) (c : Nat → Nat → Nat → Rat) :
    rrCurtailed noInst noTime cont noBus (fun h t _ n => c h t n) = (cont + 1) * plainSum noInst noTime (fun h t => ((List.range noBus).map (fun n => c h t n)).sum) := by
  unfold rrCurtailed
  rw [rrLoop_sum]
  unfold plainSum
  rw [← List.sum_map_mul_left]
  congr 1
  apply List.map_congr_left
  intro h _
  rw [← List.sum_map_mul_left]
  congr 1
  apply List.map_congr_left
  intro t _
  beta_reduce
  rw [List.map_const', List.sum_replicate, List.length_range, nsmul_eq_mul]
  push_cast
  ring

example : rrLoop 2 3 (fun h t => (h : Rat) * 10 + t) = 36 := by decide +kernel
example : rrPumps 1 2 2 (fun _ t k => (t : Rat) + k) = [1, 3] := by decide +kernel
example : rrSpill 1 2 1 100 (fun _ => 2) (fun _ _ _ => 1) (fun _ t _ => (t : Rat) * 50) = [350] := by decide +kernel
example : rrCurtailed 1 1 2 2 (fun _ _ _ n => (n : Rat) + 1) = 9 := by decide +kernel

end Pyensys
