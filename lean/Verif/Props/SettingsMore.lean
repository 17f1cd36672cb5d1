import Verif.Props.Settings
import Verif.Props.AttestOptions
import Verif.Props.Verification

/-!
# More on C46 (binary variables, tables) and C56 (clusters whose upgrade raises)
-/

namespace Pyensys

section
variable {P T : Type}

/-- a binary variable as described by an entry of the document -/
def BinVarOf (j : Json) (b : JBinVar) : Prop :=
  ∃ d, j = .obj d ∧ GivenOr d "element_type" .null b.elementType ∧ GivenOr d "variable_name" .null b.variableName ∧
    GivenOr d "elements_ids" .null b.elementsIds ∧ GivenOr d "elements_positions" (.arr []) b.positions ∧
    GivenOr d "costs" (.arr []) b.costs ∧ GivenOr d "installation_time" (.arr []) b.installationTime ∧
    GivenOr d "capacity_to_be_added_MW" (.arr []) b.capacity

/-- **C46.** The binary variables of the document are appended to those held before, in order, each with the values given
in its entry and the defaults for missing keys. -/
theorem C46_binary_variables (env : ReadEnv P T) (ps : Params P T) (doc : List (String × Json))
    (r : Params P T) (h : readDocument env ps doc = .ok r) :
    ∃ l bs, GivenOr doc "optimisation_binary_variables" (.arr []) (.arr l) ∧ r.binVars = ps.binVars ++ bs ∧
      List.Forall₂ BinVarOf l bs := by
  obtain ⟨_, _, _, _, _, _, _, h8, _⟩ := read_parts env ps doc r h
  unfold loadBinVars at h8
  split at h8
  · rename_i l hl
    split at h8
    · cases h8
    · rename_i vs hvs
      injection h8 with h8
      refine ⟨l, vs, ?_, h8.symm, ?_⟩
      · rw [← hl]; exact givenOr_jdef doc _ _
      · rw [mapM_ok_iff] at hvs
        refine hvs.imp (fun j b hj => ?_)
        unfold loadBinVar at hj
        split at hj
        · rename_i d
          injection hj with hj
          rw [← hj]
          exact ⟨d, rfl, givenOr_jdef d _ _, givenOr_jdef d _ _, givenOr_jdef d _ _, givenOr_jdef d _ _, givenOr_jdef d _ _,
            givenOr_jdef d _ _, givenOr_jdef d _ _⟩
        · cases hj
  · cases h8

/-- the table stored under a name -/
def tableGet (d : List (String × T)) (k : String) : Option T := (d.find? (fun e => e.1 = k)).map (·.2)

theorem tableGet_set (d : List (String × T)) (k : String) (v : T) (q : String) :
    tableGet (tableSet d k v) q = if q = k then some v else tableGet d q := by
  unfold tableSet
  by_cases ha : d.any (fun e => e.1 = k) = true
  · rw [if_pos ha]
    unfold tableGet
    induction d with
    | nil => simp at ha
    | cons e d ih =>
      rw [List.map_cons, List.find?_cons, List.find?_cons]
      by_cases hk : e.1 = k
      · by_cases hq : q = k
        · subst hq; simp [hk]
        · have h1 : ¬ k = q := fun x => hq x.symm
          simp only [hk, if_true, h1, decide_false, if_neg hq]
          by_cases hd : d.any (fun e => e.1 = k) = true
          · have := ih hd
            rw [if_neg hq] at this
            exact this
          · -- no other entry has the name: the rest is unchanged
            have : d.map (fun e => if e.1 = k then (k, v) else e) = d := by
              conv_rhs => rw [← List.map_id d]
              apply List.map_congr_left
              intro x hx
              have : ¬ x.1 = k := fun hxk => hd (List.any_eq_true.2 ⟨x, hx, by simpa using hxk⟩)
              simp [this]
            rw [this]
      · have hd : d.any (fun e => e.1 = k) = true := by
          rw [List.any_cons] at ha
          simpa [hk] using ha
        simp only [if_neg hk]
        by_cases hq : e.1 = q
        · have : ¬ q = k := fun x => hk (hq.trans x)
          simp [hq, this]
        · simp only [hq, decide_false]
          exact ih hd
  · rw [if_neg ha]
    unfold tableGet
    rw [List.find?_append]
    by_cases hq : q = k
    · subst hq
      have : d.find? (fun e => e.1 = q) = none := by
        rw [List.find?_eq_none]
        intro x hx hxk
        exact ha (List.any_eq_true.2 ⟨x, hx, hxk⟩)
      simp [this]
    · have h1 : ¬ k = q := fun x => hq x.symm
      simp [hq, h1]

theorem tables_fold (env : ReadEnv P T) : ∀ (l : List Json) (acc ts : List (String × T)), l.foldlM (tableStep env) acc = .ok ts →
    ∃ kts, List.Forall₂ (fun j kt => env.table j = .ok kt) l kts ∧
      ∀ k, tableGet ts k = ((tableGet kts.reverse k) <|> tableGet acc k) := by
  intro l
  induction l with
  | nil =>
    intro acc ts h
    simp only [List.foldlM_nil, pure, Except.pure, Except.ok.injEq] at h
    subst h
    exact ⟨[], .nil, fun k => by simp [tableGet]⟩
  | cons j l ih =>
    intro acc ts h
    rw [List.foldlM_cons, except_bind_ok] at h
    obtain ⟨acc', h1, h⟩ := h
    unfold tableStep at h1
    split at h1
    · cases h1
    · rename_i kt hkt
      injection h1 with h1
      obtain ⟨kts, hf, hg⟩ := ih acc' ts h
      refine ⟨kt :: kts, .cons hkt hf, fun k => ?_⟩
      rw [hg k, ← h1, tableGet_set, List.reverse_cons]
      have happ : tableGet (kts.reverse ++ [kt]) k = ((tableGet kts.reverse k) <|> (if k = kt.1 then some kt.2 else none)) := by
        unfold tableGet
        rw [List.find?_append]
        cases kts.reverse.find? (fun e => e.1 = k) with
        | some x => simp
        | none =>
          by_cases hk : k = kt.1
          · subst hk; simp
          · have : ¬ kt.1 = k := fun x => hk x.symm
            simp [this, hk]
      rw [happ]
      cases tableGet kts.reverse k with
      | some x => simp
      | none => by_cases hk : k = kt.1 <;> simp [hk]

/-- **C46.** With profiles in the attest format, the tables of the document are stored under their names, the last one of a
name counting; otherwise the tables held before are kept. -/
theorem C46_tables (env : ReadEnv P T) (ps : Params P T) (doc : List (String × Json))
    (r : Params P T) (h : readDocument env ps doc = .ok r) :
    (∀ d l, jget doc "optimisation_profiles_data" = some (.obj d) → jget d "format_data" = some (.str "attest") →
      jget d "data" = some (.arr l) → ∃ kts, List.Forall₂ (fun j kt => env.table j = .ok kt) l kts ∧
        ∀ k, tableGet r.tables k = tableGet kts.reverse k) ∧
    ((∀ d, jget doc "optimisation_profiles_data" = some (.obj d) → jget d "format_data" = none) → r.tables = ps.tables) := by
  obtain ⟨_, _, _, _, _, _, h7, _, _⟩ := read_parts env ps doc r h
  unfold loadOptProfiles at h7
  constructor
  · intro d l hd hf hl
    rw [section_some.2 hd] at h7
    simp only [jdef, hf, hl, Option.getD_some] at h7
    split at h7
    · cases h7
    · rename_i ts hts
      split at h7
      · cases h7
      · injection h7 with h7
        have : r.tables = ts := by
          have := congrArg (fun x => x.2.2) h7
          simpa using this.symm
        rw [this]
        obtain ⟨kts, h1, h2⟩ := tables_fold env l [] ts hts
        exact ⟨kts, h1, fun k => by rw [h2 k]; cases tableGet kts.reverse k <;> simp [tableGet]⟩
  · intro hn
    split at h7
    · cases h7
    · injection h7 with h7
      exact (congrArg (fun x => x.2.2) h7).symm
    · rename_i d hs
      have := hn d (section_some.1 hs)
      simp only [jdef, this, Option.getD_none] at h7
      split at h7
      · cases h7
      · injection h7 with h7
        exact (congrArg (fun x => x.2.2) h7).symm

end

/-- **C56.** A returned cluster comes from the list, its upgrade was carried out without an exception on some network
reached by applying the clusters before it, and the OPF of the result converges. -/
theorem C56_applied_partial (taps : List Rat) (opf : VNet → Bool) : ∀ (cs : List (List Rat × Rat)) (net : VNet) (c : List Rat × Rat),
    verifyClusters taps opf cs net = some c →
    ∃ pre post M N, cs = pre ++ c :: post ∧ M = pre.foldl (fun n d => (applyCluster taps n d.1).1) net ∧
      applyCluster taps M c.1 = (N, false) ∧ opf N = true := by
  intro cs
  induction cs with
  | nil => intro net c h; simp [verifyClusters] at h
  | cons d cs ih =>
    intro net c h
    unfold verifyClusters at h
    by_cases hd : (!(applyCluster taps net d.1).2 && opf (applyCluster taps net d.1).1) = true
    · simp only [hd, if_true, Option.some.injEq] at h
      subst h
      simp only [Bool.and_eq_true, Bool.not_eq_true'] at hd
      exact ⟨[], cs, net, (applyCluster taps net d.1).1, rfl, rfl, by rw [← hd.1], hd.2⟩
    · simp only [hd, Bool.false_eq_true, if_false] at h
      obtain ⟨pre, post, M, N, h1, h2, h3, h4⟩ := ih _ c h
      exact ⟨d :: pre, post, M, N, by rw [h1]; rfl, by rw [h2]; rfl, h3, h4⟩

/-- the cluster with too many branches raises and is not returned although the OPF would converge -/
theorem C56_applied_witness : verifyClusters vTaps (fun _ => true) [([11, 4, 66, 1], 5), ([11, 4, 66], 7)] vBase = some ([11, 4, 66], 7) := by
  decide +kernel

/-- two variables, one of them with defaults; and a table given twice -/
theorem C46_witness :
    (∃ r, readDocument envEx {} docEx = .ok r ∧ ∃ b, r.binVars = [b] ∧ b.costs = .arr [.num 3] ∧ b.capacity = .arr []) ∧
    tableGet (tableSet (tableSet ([] : List (String × Nat)) "a" 1) "a" 2) "a" = some 2 := by
  exact ⟨⟨_, rfl, _, rfl, rfl, rfl⟩, by decide⟩

end Pyensys
