import Verif.Props.EngineModel

/-!
# Costs, periods and examples of the model of the compiled engine (C202, C203)
-/

namespace Pyensys

/-! ## costs in every period -/

/-- **C203** a generator with a quadratic cost whose leading coefficient is not negative: in every solution its cost is at least the quadratic cost of its output in megawatts, if the output is within the limits of the first period. -/
theorem C203_quadratic_partial (base : Rat) (hb : 0 < base) (pr mu : Bool) (vs ws : List CVertex) (p : CProb) (h : cModel base pr mu vs = .ok (ws, p)) (hv : ∀ v ∈ vs, CGiven v) (hnet : CNetOk vs) (hc : ∀ v ∈ vs, CCostGiven v) :
    ∃ s0 subs, cSubs pr mu vs = .ok (s0 :: subs) ∧ ∀ s ∈ s0 :: subs, ∀ x, cFeasible p (cSub s) x → ∀ (k : Nat) (v : CVertex), vs[k]? = some v → cIsGen v = true → cOn v s = true →
      ∀ i n a b c0, cFetch v "cost function".toList [] = .one i → CCost i 2 n [a, b, c0] → 1 ≤ n → 0 ≤ a → 0 ≤ cVal v "Pmin".toList s0 → 0 < cVal v "active power max limit".toList s0 →
        ∀ G, G = base * x ⟨k, "active power generation".toList, cExtra s⟩ → cVal v "Pmin".toList s0 ≤ G → G ≤ cVal v "active power max limit".toList s0 → 0 ≤ a * G ^ 2 + b * G + c0 →
          a * G ^ 2 + b * G + c0 ≤ x ⟨k, "active power generation cost".toList, cExtra s⟩ := by
  obtain ⟨s0, subs, hsubs, hbuilt, _, hall⟩ := C203_model_partial base pr mu vs ws p h hv hnet hc
  refine ⟨s0, subs, hsubs, ?_⟩
  intro s hs x hx k v hvk hg hon i n a b c0 hi hcost hn ha hmin hmax G hG h1 h2 h3
  have d := ((hall s hs x).1).1 hx
  obtain ⟨w, hwk, hr⟩ := forall₂_forth hbuilt k v hvk
  have hg' : cIsGen w = true := by unfold cIsGen at hg ⊢; rw [hr.chars]; exact hg
  have hon' : cOn w s = true := by
    rw [← hon]
    unfold cOn cBool
    rw [hr.other]
    · unfold CPower
      rintro (⟨_, h⟩ | ⟨_, h | h | h | h | h | h⟩ | ⟨_, h⟩) <;> exact absurd h (by decide +kernel)
    · decide +kernel
  obtain ⟨L, hL, hf⟩ := (hr.cost hg).2 i hi
  obtain ⟨L', sl, ub, q1, q2, q3, q4⟩ := C201_quadratic_partial i n a b c0 ha hcost hn base (cVal v "active power max limit".toList s0 / base) (cVal v "Pmin".toList s0 / base) hb (div_pos hmax hb)
  rw [hL] at q1
  have e := Except.ok.inj q1
  subst e
  have hok := d.cost (w, k) (cOf_mem.2 ⟨hwk, hg'⟩) hon' _ hf sl ub q2 q3
  dsimp only at hok
  generalize x ⟨k, "active power generation".toList, cExtra s⟩ = P at *
  generalize x ⟨k, "active power generation cost".toList, cExtra s⟩ = C at *
  have hPG : P * base = G := by rw [hG]; ring
  have r1 : cVal v "Pmin".toList s0 / base ≤ P := by
    rw [div_le_iff₀ hb, hPG]
    exact h1
  have r2 : P ≤ cVal v "Pmin".toList s0 / base + cVal v "active power max limit".toList s0 / base := by
    rw [← add_div, le_div_iff₀ hb, hPG]
    linarith
  obtain ⟨least, l1, l2, _⟩ := q4 P r1 r2 (by rw [hPG]; exact h3)
  have := (l1 C).1 hok
  rw [hPG] at l2
  linarith

/-- **C203** a parameter with one entry is used in all periods -/
theorem C203_single_partial (v : CVertex) (name : Tok) (i : CInfo) (h : cFetch v name [] = .one i) (s : CWhen) : cParam v name (cExtra s) = .ok i.value := by
  unfold cParam
  rw [h]

/-! ## branches in periods -/

theorem foldE_steps {ε α σ : Type} (f : σ → α → Except ε σ) (l : List α) : ∀ (s t : σ), l.foldlM f s = .ok t → ∀ a ∈ l, ∃ u w, f u a = .ok w := by
  induction l with
  | nil => intro s t _ a ha; cases ha
  | cons b l ih =>
    intro s t h a ha
    rw [foldE_cons] at h
    obtain ⟨u, h1, h2⟩ := (bindE_iff _ _ _).1 h
    rcases List.mem_cons.1 ha with rfl | ha
    · exact ⟨s, u, h1⟩
    · exact ih u t h2 a ha

/-- **C202** violated: the states of branches cannot differ from period to period: if a branch has more than one entry for its status or for its reactance, there is no model. -/
theorem C202_status_violated (subs : List CWhen) (vs : List CVertex) (hnet : CNetOk vs) (l : CVertex × Nat) (hl : l ∈ cOf cIsBranch vs)
    (hm : cFetch l.1 "status".toList [] = .many ∨ cFetch l.1 "reactance".toList [] = .many) : ∀ p, cProblem subs vs ≠ .ok p := by
  intro p h
  have hp := cParts_of h
  obtain ⟨numbers, hmat⟩ := cMat_of hp
  obtain ⟨_, ⟨q, hq, hqf⟩, _⟩ := hnet.ends l hl
  obtain ⟨bus, row, _, hrow, _⟩ := (cBalance_parts hnet hmat.num hq (hmat.bal q hq)).out
  obtain ⟨h1, h2⟩ := List.mem_filter.1 hl
  have hmem : l ∈ (cNext vs q.2).filter (fun t => cIsBranch t.1) := by
    rw [cNext_eq hnet hq, List.mem_filter, List.mem_filter]
    refine ⟨⟨h1, ?_⟩, h2⟩
    simp [h2, hqf]
  obtain ⟨u, w, hs⟩ := foldE_steps _ _ _ _ hrow l hmem
  unfold cSusceptance at hs
  obtain ⟨st, g1, hs⟩ := (bindE_iff _ _ _).1 hs
  obtain ⟨y, g2, hs⟩ := (bindE_iff _ _ _).1 hs
  rcases hm with hm | hm
  · unfold cBool cParam at g1
    rw [hm] at g1
    cases g1
  · unfold cDouble cParam at g2
    rw [hm] at g2
    cases g2

/-! ## examples -/

/-- a parameter as Python loads it -/
def cExParam (id type : String) (more : List (Tok × CVal × Bool)) (name : String) (val : CVal) : CInfo :=
  cLoads cNone ([("ID".toList, .str id.toList, false), ("type".toList, .str type.toList, false)] ++ more ++ [("name".toList, .str name.toList, false), ("value".toList, val, false)])

def cExBus (id : String) (k : Int) (pd : Rat) : List CInfo := [cExParam id "bus" [("number".toList, .int k, false)] "Pd" (.dbl pd)]

def cExGen (id : String) (k : Int) (mx : Rat) (cost : List CInfo) : List CInfo :=
  [cExParam id "generator" [("number".toList, .int k, false)] "active power max limit" (.dbl mx), cExParam id "generator" [("number".toList, .int k, false)] "Pmin" (.dbl 0),
   cExParam id "generator" [("number".toList, .int k, false)] "status" (.bool true)] ++ cost

def cExLine (id : String) (a b : Int) (x m : Rat) : List CInfo :=
  [cExParam id "branch" [("from".toList, .int a, false), ("to".toList, .int b, false)] "reactance" (.dbl x), cExParam id "branch" [("from".toList, .int a, false), ("to".toList, .int b, false)] "maxPflow" (.dbl m),
   cExParam id "branch" [("from".toList, .int a, false), ("to".toList, .int b, false)] "status" (.bool true)]

/-- the cost 0.02 P² + 20 P + 5 in four pieces -/
def cExPoly (id : String) (k : Int) (more : List (Tok × CVal × Bool)) (cs : List Rat) : CInfo :=
  cExParam id "generator" ([("number".toList, .int k, false), ("model".toList, .int 2, false), ("pieces".toList, .int 4, false)] ++ cs.map (fun c => ("coefficients".toList, .dbl c, true)) ++ more) "cost function" (.bool true)

/-- two buses; a generator of 100 MW at the first, a demand of 50 MW at the second, a line of 60 MW between them -/
def cExNet : List CVertex := cNodes (cExBus "b1" 1 0 ++ cExBus "b2" 2 50 ++ cExGen "g1" 1 100 [cExPoly "g1" 1 [] [1/50, 20, 5]] ++ cExLine "l1" 1 2 (1/10) 60)

/-- the model of it -/
def cExModel : List CVertex × CProb := okD (cModel 100 false false cExNet) ([], ⟨[], [], []⟩)

/-- its solution -/
def cExSol (i : CId) : Rat :=
  if i.node = 2 ∧ i.name = "active power generation".toList then 1/2
  else if i.node = 2 ∧ i.name = "active power generation cost".toList then 1055
  else if i.node = 1 ∧ i.name = "voltage angle".toList then -1/20
  else 0

instance (l u : Option Rat) (x : Rat) : Decidable (cWithin l u x) :=
  match l, u with
  | none, none => isTrue ⟨fun _ h => (by cases h), fun _ h => by cases h⟩
  | some a, none => if h : a ≤ x then isTrue ⟨fun _ e => by cases e; exact h, fun _ h => by cases h⟩ else isFalse (fun hc => h (hc.1 a rfl))
  | none, some b => if h : x ≤ b then isTrue ⟨fun _ h => (by cases h), fun _ e => by cases e; exact h⟩ else isFalse (fun hc => h (hc.2 b rfl))
  | some a, some b => if h : a ≤ x ∧ x ≤ b then isTrue ⟨fun _ e => by cases e; exact h.1, fun _ e => by cases e; exact h.2⟩ else isFalse (fun hc => h ⟨hc.1 a rfl, hc.2 b rfl⟩)

instance (p : CProb) (period : List CChar) (x : CId → Rat) : Decidable (cFeasible p period x) := by unfold cFeasible; infer_instance

instance (vs : List CVertex) : Decidable (CNetOk vs) :=
  decidable_of_iff (((cOf cIsBus vs).map (fun q => cNo q.1)).Nodup ∧ ∀ l ∈ cOf cIsBranch vs, cFrom l.1 ≠ cTo l.1 ∧ (∃ q ∈ cOf cIsBus vs, cNo q.1 = cFrom l.1) ∧ (∃ q ∈ cOf cIsBus vs, cNo q.1 = cTo l.1))
    ⟨fun h => ⟨h.1, h.2⟩, fun h => ⟨h.1, h.2⟩⟩

theorem C202_witness : (cModel 100 false false cExNet).toOption.isSome = true ∧ CNetOk cExNet ∧ CNetOk cExModel.1 ∧ (∀ q ∈ cOf cIsGen cExModel.1, cFetch q.1 "cost function".toList [] ≠ .many) ∧
    (cProblem [([], -1)] cExModel.1).toOption = some cExModel.2 ∧ cFeasible cExModel.2 (cSub ([], -1)) cExSol ∧ cObjective cExModel.2 (cSub ([], -1)) cExSol = 1055 := by
  refine ⟨by decide +kernel, by decide +kernel, by decide +kernel, by decide +kernel, by decide +kernel, by decide +kernel, by decide +kernel⟩

def cExParams : List CInfo := cExBus "b1" 1 0 ++ cExBus "b2" 2 50 ++ cExGen "g1" 1 100 [cExPoly "g1" 1 [] [1/50, 20, 5]] ++ cExLine "l1" 1 2 (1/10) 60

theorem cExLoaded (id type : String) (more : List (Tok × CVal × Bool)) (name : String) (val : CVal) : ∃ old l, cExParam id type more name val = cLoads old l := ⟨_, _, rfl⟩

theorem C203_witness : (∀ v ∈ cExNet, CGiven v) ∧ (∀ v ∈ cExNet, CCostGiven v) := by
  constructor
  · refine C200_loaded cExParams (by decide +kernel) ?_ ?_
    · have : ∀ p ∈ cExParams, ∃ old l, p = cLoads old l := by
        unfold cExParams cExBus cExGen cExLine cExPoly
        simp only [List.mem_append, List.mem_cons, List.not_mem_nil, or_false, or_imp, forall_and, forall_eq]
        refine ⟨⟨⟨?_, ?_⟩, ⟨?_, ?_, ?_⟩, ?_⟩, ?_, ?_, ?_⟩ <;> exact cExLoaded _ _ _ _ _
      exact this
    · have : ∀ v ∈ cNodes cExParams, ∀ p ∈ cExParams, cId p.chars = cId v.chars → ∀ n ∈ cPowers (cType v), (⟨"name".toList, .str n, []⟩ : CChar) ∈ p.chars → (match p.value with | .dbl _ => true | _ => false) = true := by decide +kernel
      intro v hv p hp h1 n hn h2
      have h3 := this v hv p hp h1 n ((cPowers_iff _ _).2 hn) h2
      revert h3
      cases p.value with
      | dbl q => intro _; exact ⟨q, rfl⟩
      | _ => intro h; cases h
  · intro v hv hg
    have hall : ∀ v ∈ cExNet, cIsGen v = true → cFetch v "cost function".toList [] = .one (cExPoly "g1" 1 [] [1/50, 20, 5]) := by decide +kernel
    refine Or.inr ⟨_, 2, 4, [1/50, 20, 5], hall v hv hg, by constructor <;> decide +kernel, ?_⟩
    intro n hn
    have hnd : ((cExPoly "g1" 1 [] [1/50, 20, 5]).chars.map (·.name)).Nodup := by decide +kernel
    have hin : (⟨"name".toList, .str "cost function".toList, []⟩ : CChar) ∈ (cExPoly "g1" 1 [] [1/50, 20, 5]).chars := by decide +kernel
    have := List.inj_on_of_nodup_map hnd hn hin rfl
    injection this with _ h3
    injection h3

theorem C199_witness : (∀ p ∈ cExParams, cHas p.chars "ID".toList = true) ∧ CApart cExParams ∧ (cNodes cExParams).length = 4 ∧
    ∃ v ∈ cNodes cExParams, cIsBus v = true ∧ cNo v = .int 2 ∧ (cDouble v "Pd".toList []).toOption = some 50 := by
  refine ⟨by decide +kernel, by unfold CApart; decide +kernel, by decide +kernel, by decide +kernel⟩

/-! ## examples: periods -/

def cExHourBus (id : String) (k : Int) (hours : List (Rat × Rat)) : List CInfo := hours.map (fun h => cExParam id "bus" [("number".toList, .int k, false), ("hour".toList, .dbl h.1, false)] "Pd" (.dbl h.2))

/-- a bus with 50 MW in the first and 70 MW in the second hour, and a generator whose output costs 20 a megawatt in the first and 30 in the second hour -/
def cExHours : List CVertex := cNodes (cExHourBus "b1" 1 [(1, 50), (2, 70)] ++
  cExGen "g1" 1 100 [cExPoly "g1" 1 [("hour".toList, .dbl 1, false)] [20, 0], cExPoly "g1" 1 [("hour".toList, .dbl 2, false)] [30, 0]])

def cExHoursModel : CProb := (okD (cModel 100 false true cExHours) ([], ⟨[], [], []⟩)).2

/-- 70 MW in the second hour, at a cost of 1400 -/
def cExHoursSol (i : CId) : Rat :=
  if i.name = "active power generation".toList then 7/10
  else if i.name = "active power generation cost".toList then 1400
  else 0

/-- **C203** violated: with cost functions that differ from hour to hour, the slopes of the first hour are used in all: 70 MW at 30 a megawatt cost 2100, and the program of the second hour admits 1400. -/
theorem C203_hourcost_violated : (cModel 100 false true cExHours).toOption.isSome = true ∧ (cSubs false true cExHours).toOption = some [([], 1), ([], 2)] ∧
    cFeasible cExHoursModel (cSub ([], 2)) cExHoursSol ∧ cObjective cExHoursModel (cSub ([], 2)) cExHoursSol = 1400 := by
  refine ⟨by decide +kernel, by decide +kernel, by decide +kernel, by decide +kernel⟩

/-- a bus with a demand in one hour, and one with demands in two -/
def cExFewer : List CVertex := cNodes (cExHourBus "b1" 1 [(1, 50)] ++ cExHourBus "b2" 2 [(1, 10), (2, 20)])

/-- a bus with demands in two hours, and one with a demand in the first only -/
def cExOnce : List CVertex := cNodes (cExHourBus "b1" 1 [(1, 50), (2, 70)] ++ cExHourBus "b2" 2 [(1, 10)])

/-- **C203** violated: the hours of the first element with any are those of the model: the second hour of the second bus is left out; and a demand that is given for the first hour only is the demand of every hour. -/
theorem C203_hours_violated : (cSubs false true cExFewer).toOption = some [([], 1)] ∧ (cSubs false true cExOnce).toOption = some [([], 1), ([], 2)] ∧
    ∃ v ∈ cExOnce, cNo v = .int 2 ∧ cVal v "Pd".toList ([], 2) = 10 := by
  refine ⟨by decide +kernel, by decide +kernel, ?_⟩
  decide +kernel

end Pyensys
