import Verif.Model.EngineLoad
import Mathlib.Data.List.Forall2

/-!
# C246: what was read from a workbook reaches the compiled engine
-/

namespace Pyensys

/-! ## specification -/

/-- a cell and the value of the engine that is the same; `True` is 1 where a number is declared, and where a switch is declared 0 is off and every other whole number on -/
inductive YlSame : XDt → XCell → CVal → Prop where
  | int (n : Int) (h : -2147483648 ≤ n ∧ n ≤ 2147483647) : YlSame .integer (.int n) (.int n)
  | dbl (q : Rat) : YlSame .double (.num q) (.dbl q)
  | whole (n : Int) : YlSame .double (.int n) (.dbl n)
  | str (t : Tok) : YlSame .string (.text t) (.str t)
  | bool (b : Bool) : YlSame .bool (.bool b) (.bool b)
  | intTrue : YlSame .integer (.bool true) (.int 1)
  | intFalse : YlSame .integer (.bool false) (.int 0)
  | dblTrue : YlSame .double (.bool true) (.dbl 1)
  | dblFalse : YlSame .double (.bool false) (.dbl 0)
  | switchOn (n : Int) (h : n ≠ 0) : YlSame .bool (.int n) (.bool true)
  | switchOff : YlSame .bool (.int 0) (.bool false)
  | vint (n : Int) (h : -2147483648 ≤ n ∧ n ≤ 2147483647) : YlSame .vInteger (.int n) (.int n)
  | vdbl (q : Rat) : YlSame .vDouble (.num q) (.dbl q)
  | vwhole (n : Int) : YlSame .vDouble (.int n) (.dbl n)
  | vstr (t : Tok) : YlSame .vString (.text t) (.str t)
  | vbool (b : Bool) : YlSame .vBool (.bool b) (.bool b)

/-- the types of one value -/
def YlScalar (dt : XDt) : Prop := dt = .integer ∨ dt = .double ∨ dt = .string ∨ dt = .bool

/-- a characteristic and the same one in the engine: one value, or a list of them that is not empty -/
def YlChar (h : XChar) (c : CChar) : Prop :=
  c.name = h.name ∧
  ((YlScalar h.dt ∧ ∃ x, h.value = .one x ∧ YlSame h.dt x c.value ∧ c.values = []) ∨
   (¬ YlScalar h.dt ∧ ∃ l, h.value = .many l ∧ l ≠ [] ∧ c.value = .str "N/A".toList ∧ List.Forall₂ (YlSame h.dt) l c.values))

/-- an entry and the same one in the engine; its characteristics have different names -/
structure YlInfo (x : XInfo) (p : CInfo) : Prop where
  chars : List.Forall₂ YlChar x.chars p.chars
  names : (x.chars.map XChar.name).Nodup
  plain : "value".toList ∉ x.chars.map XChar.name
  scalar : YlScalar x.dt
  value' : YlSame x.dt x.value p.value

/-- a parameter of the tree and the same one in the engine -/
def YlTreeSame (t : YlTree) (p : CInfo) : Prop :=
  (-2147483648 ≤ t.level ∧ t.level ≤ 2147483647) ∧
  p = ⟨[⟨"name".toList, .str t.name, []⟩, ⟨"name_node".toList, .str t.node, []⟩, ⟨"level".toList, .int t.level, []⟩], .dbl t.value⟩

/-- an option and the same one in the engine: the base power is a number, the solver, the engine and the name of the file are texts, the problems and what they use are switches -/
def YlOptionSame (o : YlOption) (p : CInfo) : Prop :=
  p.chars = ⟨"name".toList, .str o.name, []⟩ :: (o.engine.toList.map (fun e => ⟨"engine".toList, .str e, []⟩)) ∧
  ((o.name = "Sbase".toList ∧ YlSame .double o.value p.value) ∨
   (o.name ∈ ["solver".toList, "engine".toList, "output file name".toList] ∧ YlSame .string o.value p.value) ∨
   (o.name ∈ ["DC ED".toList, "DC OPF".toList, "AC PF".toList, "NetR".toList, "BT".toList, "SEP".toList, "TEP".toList, "UC".toList, "GEP".toList,
      "loss".toList, "multiperiod".toList, "MOEA".toList, "representative periods".toList] ∧ YlSame .bool o.value p.value))

/-! ## proofs -/

theorem yl_set_new {l : List CChar} {c : CChar} {vec : Bool} (h : ∀ e ∈ l, e.name ≠ c.name) : cSetChar l c vec = l ++ [c] := by
  induction l with
  | nil => rfl
  | cons e l ih => rw [cSetChar, if_neg (h e (by simp)), ih (fun e he => h e (by simp [he])), List.cons_append]

theorem yl_set_last {l : List CChar} {n : Tok} {v : CVal} {vs : List CVal} {c : CChar} (h : ∀ e ∈ l, e.name ≠ c.name) (hn : n = c.name) :
    cSetChar (l ++ [⟨n, v, vs⟩]) c true = l ++ [⟨n, v, vs ++ c.values⟩] := by
  induction l with
  | nil => simp [cSetChar, hn]
  | cons e l ih => rw [List.cons_append, cSetChar, if_neg (h e (by simp)), ih (fun e he => h e (by simp [he])), List.cons_append]

theorem yl_scalar {dt : XDt} : YlScalar dt ↔ dt.isVec = false := by
  cases dt <;> simp [YlScalar, XDt.isVec]

theorem yl_cell (cfg : YlCfg) {dt : XDt} {x : XCell} {v : CVal} (h : YlSame dt x v) : ylCell cfg dt x = .ok v := by
  cases h
  case bool b => cases b <;> simp [ylCell, xTrue, XCell.number]
  case vbool b => cases b <;> simp [ylCell, xTrue, XCell.number]
  case switchOn n h => simp [ylCell, xTrue, XCell.number, h]
  case switchOff => simp [ylCell, xTrue, XCell.number]
  case dblTrue => simp [ylCell, ylDbl, XCell.number]
  case dblFalse => simp [ylCell, ylDbl, XCell.number]
  all_goals first | rfl | simp_all [ylCell, ylInt, ylInt32]

/-- one value -/
theorem yl_load_one (cfg : YlCfg) (cand : CInfo) {dt : XDt} {name : Tok} {x : XCell} {v : CVal} (hs : YlScalar dt) (h : YlSame dt x v) :
    ylLoadValue cfg cand dt name (.one x) = .ok (cLoad cand name v false) := by
  unfold ylLoadValue
  rw [yl_scalar.mp hs]
  simp only [Bool.false_eq_true, if_false]
  rw [yl_cell cfg h]
  rfl

/-- the values of a list after the first -/
theorem yl_load_rest (cfg : YlCfg) {dt : XDt} {name : Tok} (hv : name ≠ "value".toList) {pre : List CChar} (hp : ∀ e ∈ pre, e.name ≠ name) (w : CVal) :
    ∀ {l : List XCell} {vs : List CVal}, List.Forall₂ (YlSame dt) l vs → ∀ us : List CVal,
      l.foldlM (fun c x => do
        let y ← ylCell cfg dt x
        return cLoad c name y true) (⟨pre ++ [⟨name, cNA, us⟩], w⟩ : CInfo) = (.ok ⟨pre ++ [⟨name, cNA, us ++ vs⟩], w⟩ : Except PyErr CInfo)
  | _, _, .nil, us => by simp [pure, Except.pure]
  | _, _, .cons (a := a) (b := b) h hl, us => by
    rw [List.foldlM_cons, yl_cell cfg h]
    simp only [bind, Except.bind, pure, Except.pure]
    have : cLoad ⟨pre ++ [⟨name, cNA, us⟩], w⟩ name b true = ⟨pre ++ [⟨name, cNA, us ++ [b]⟩], w⟩ := by
      unfold cLoad
      rw [if_neg hv]
      simp only [cChar, if_true]
      rw [yl_set_last (c := ⟨name, cNA, [b]⟩) hp rfl]
    rw [this]
    have := yl_load_rest cfg hv hp w hl (us ++ [b])
    simp only [bind, Except.bind, pure, Except.pure] at this
    rw [this]
    simp

theorem yl_load_char (cfg : YlCfg) {h : XChar} {c : CChar} (hc : YlChar h c) (hv : h.name ≠ "value".toList) {pre : List CChar} (hp : ∀ e ∈ pre, e.name ≠ h.name) (w : CVal) :
    ylLoadValue cfg ⟨pre, w⟩ h.dt h.name h.value = .ok ⟨pre ++ [c], w⟩ := by
  obtain ⟨hn, ⟨hs, x, hx, hsame, hvs⟩ | ⟨hs, l, hx, hne, hval, hall⟩⟩ := hc
  · rw [hx, yl_load_one cfg _ hs hsame]
    unfold cLoad
    rw [if_neg hv]
    have e : cChar h.name c.value false = c := by
      cases c
      simp_all [cChar]
    rw [e, yl_set_new (fun e he => by rw [hn]; exact hp e he)]
  · rw [hx]
    have hvec : h.dt.isVec = true := by
      cases hh : h.dt.isVec with
      | true => rfl
      | false => exact absurd (yl_scalar.mpr hh) hs
    obtain ⟨cn, cv, cvs⟩ := c
    simp only at hn hval hall
    subst hn hval
    cases hall with
    | nil => exact absurd rfl hne
    | @cons a b l vs hab hl =>
      unfold ylLoadValue
      rw [hvec]
      simp only [if_true, ylIter]
      rw [show ((Except.ok (a :: l) : Except PyErr (List XCell)) >>= fun l => l.foldlM (fun c x => do
        let y ← ylCell cfg h.dt x
        return cLoad c h.name y true) (⟨pre, w⟩ : CInfo)) = (a :: l).foldlM (fun c x => do
        let y ← ylCell cfg h.dt x
        return cLoad c h.name y true) (⟨pre, w⟩ : CInfo) from rfl]
      rw [List.foldlM_cons, yl_cell cfg hab]
      simp only [bind, Except.bind, pure, Except.pure]
      have e : cLoad ⟨pre, w⟩ h.name b true = ⟨pre ++ [⟨h.name, cNA, [b]⟩], w⟩ := by
        unfold cLoad
        rw [if_neg hv]
        simp only [cChar, if_true]
        rw [yl_set_new (by simpa using hp)]
      rw [e]
      have := yl_load_rest cfg hv hp w hl [b]
      simp only [bind, Except.bind, pure, Except.pure] at this
      rw [this]
      rfl

theorem yl_load_chars (cfg : YlCfg) (w : CVal) : ∀ {hs : List XChar} {cs : List CChar}, List.Forall₂ YlChar hs cs → (hs.map XChar.name).Nodup →
    "value".toList ∉ hs.map XChar.name → ∀ {pre : List CChar}, (∀ e ∈ pre, ∀ h ∈ hs, e.name ≠ h.name) →
    hs.foldlM (fun c h => ylLoadValue cfg c h.dt h.name h.value) (⟨pre, w⟩ : CInfo) = .ok ⟨pre ++ cs, w⟩
  | _, _, .nil, _, _, pre, _ => by simp [pure, Except.pure]
  | _, _, .cons (a := h) (b := c) (l₁ := hs) (l₂ := cs) hc hl, hd, hv, pre, hp => by
    rw [List.map_cons, List.nodup_cons] at hd
    simp only [List.map_cons, List.mem_cons, not_or] at hv
    rw [List.foldlM_cons, yl_load_char cfg hc (fun e => hv.1 e.symm) (fun e he => hp e he h (by simp)) w]
    simp only [bind, Except.bind]
    rw [yl_load_chars cfg w hl hd.2 hv.2 (pre := pre ++ [c])]
    · simp
    · intro e he k hk
      rcases List.mem_append.mp he with he | he
      · exact hp e he k (by simp [hk])
      · obtain rfl := List.mem_singleton.mp he
        rw [hc.1]
        exact fun e => hd.1 (by rw [e]; exact List.mem_map_of_mem hk)

theorem yl_element (cfg : YlCfg) (dest : YlList) (s : YlStore) {x : XInfo} {p : CInfo} (h : YlInfo x p) :
    ylElement cfg dest s x = .ok (ylPush { s with cand := p } dest) := by
  unfold ylElement ylCreate
  rw [yl_load_chars cfg s.cand.value h.chars h.names h.plain (by simp)]
  simp only [bind, Except.bind]
  rw [yl_load_one cfg _ h.scalar h.value']
  simp [cLoad, pure, Except.pure]

/-- the store with entries added to a list; the last is the candidate -/
def ylAdd (s : YlStore) (dest : YlList) (ps : List CInfo) : YlStore := ps.foldl (fun s p => ylPush { s with cand := p } dest) s

theorem yl_elements (cfg : YlCfg) (dest : YlList) : ∀ {xs : List XInfo} {ps : List CInfo}, List.Forall₂ YlInfo xs ps → ∀ s : YlStore,
    ylLoad2 cfg dest s (some xs) = .ok (ylAdd s dest ps)
  | _, _, .nil, s => by simp [ylLoad2, ylAdd, pure, Except.pure]
  | _, _, .cons (a := x) (b := p) h hl, s => by
    have := yl_elements cfg dest hl (ylPush { s with cand := p } dest)
    simp only [ylLoad2] at this ⊢
    rw [List.foldlM_cons, yl_element cfg dest s h]
    simp only [bind, Except.bind]
    rw [this]
    rfl

theorem yl_tree (cfg : YlCfg) (s : YlStore) {t : YlTree} {p : CInfo} (h : YlTreeSame t p) : ylTree cfg s t = .ok (ylPush { s with cand := p } .tree) := by
  obtain ⟨hl, rfl⟩ := h
  unfold ylTree ylCreate
  rw [yl_load_one cfg _ (.inr (.inr (.inl rfl))) (.str _)]
  simp only [bind, Except.bind]
  rw [yl_load_one cfg _ (.inr (.inr (.inl rfl))) (.str _)]
  simp only
  rw [yl_load_one cfg _ (.inl rfl) (.int _ hl)]
  simp only
  rw [yl_load_one cfg _ (.inr (.inl rfl)) (.dbl _)]
  simp [cLoad, pure, Except.pure, cSetChar, cChar]

theorem yl_trees (cfg : YlCfg) : ∀ {ts : List YlTree} {ps : List CInfo}, List.Forall₂ YlTreeSame ts ps → ∀ s : YlStore,
    ts.foldlM (ylTree cfg) s = .ok (ylAdd s .tree ps)
  | _, _, .nil, s => by simp [ylAdd, pure, Except.pure]
  | _, _, .cons (a := x) (b := p) h hl, s => by
    rw [List.foldlM_cons, yl_tree cfg s h]
    simp only [bind, Except.bind]
    rw [yl_trees cfg hl _]
    rfl

theorem yl_option_value (cfg : YlCfg) (hstr : ∀ t, cfg.str (.text t) = t) (c : CInfo) {o : YlOption} {p : CInfo} (h : YlOptionSame o p) :
    ylOptionValue cfg c o = .ok { c with value := p.value } := by
  unfold ylOptionValue
  obtain ⟨hn, hsame⟩ | ⟨hn, hsame⟩ | ⟨hn, hsame⟩ := h.2
  · rw [if_pos (by rw [hn]; decide), yl_load_one cfg _ (.inr (.inl rfl)) hsame]
    simp [cLoad]
  · have h1 : o.name ∉ ylDoubleOptions := (show ∀ n ∈ ["solver".toList, "engine".toList, "output file name".toList], n ∉ ylDoubleOptions by decide) _ hn
    have h2 : o.name ∈ ylStringOptions := hn
    rw [if_neg h1, if_pos h2]
    have ht : ∃ t, o.value = .text t ∧ p.value = .str t := by
      revert hsame
      generalize o.value = x
      generalize p.value = y
      intro hsame
      cases hsame
      exact ⟨_, rfl, rfl⟩
    obtain ⟨t, h3, h4⟩ := ht
    rw [h3, hstr, yl_load_one cfg _ (.inr (.inr (.inl rfl))) (.str _), h4]
    simp [cLoad]
  · have h2 : o.name ∈ ylBoolOptions := hn
    have h1 := (show ∀ n ∈ ylBoolOptions, n ∉ ylDoubleOptions ∧ n ∉ ylStringOptions by decide) _ h2
    rw [if_neg h1.1, if_neg h1.2, if_pos h2, yl_load_one cfg _ (.inr (.inr (.inr rfl))) hsame]
    simp [cLoad]

theorem yl_option (cfg : YlCfg) (hstr : ∀ t, cfg.str (.text t) = t) (s : YlStore) {o : YlOption} {p : CInfo} (h : YlOptionSame o p) :
    ylOption cfg s o = .ok (ylPush { s with cand := p } .model) := by
  unfold ylOption ylCreate
  rw [yl_load_one cfg _ (.inr (.inr (.inl rfl))) (.str _)]
  simp only [bind, Except.bind]
  have e : ylOptionEngine cfg (cLoad ⟨[], s.cand.value⟩ "name".toList (.str o.name) false) o = .ok ⟨p.chars, s.cand.value⟩ := by
    unfold ylOptionEngine
    rw [h.1]
    cases he : o.engine with
    | none => simp [cLoad, cSetChar, cChar]
    | some e =>
      simp only
      rw [yl_load_one cfg _ (.inr (.inr (.inl rfl))) (.str _)]
      simp [cLoad, cSetChar, cChar]
  rw [e]
  simp only
  rw [yl_option_value cfg hstr _ h]
  rfl

theorem yl_options (cfg : YlCfg) (hstr : ∀ t, cfg.str (.text t) = t) : ∀ {os : List YlOption} {ps : List CInfo}, List.Forall₂ YlOptionSame os ps → ∀ s : YlStore,
    os.foldlM (ylOption cfg) s = .ok (ylAdd s .model ps)
  | _, _, .nil, s => by simp [ylAdd, pure, Except.pure]
  | _, _, .cons (a := x) (b := p) h hl, s => by
    rw [List.foldlM_cons, yl_option cfg hstr s h]
    simp only [bind, Except.bind]
    rw [yl_options cfg hstr hl _]
    rfl

theorem ylAdd_lists (dest : YlList) : ∀ (ps : List CInfo) (s : YlStore),
    (ylAdd s dest ps).network = s.network ++ (if dest = .network then ps else []) ∧ (ylAdd s dest ps).tree = s.tree ++ (if dest = .tree then ps else []) ∧
    (ylAdd s dest ps).model = s.model ++ (if dest = .model then ps else []) ∧ (ylAdd s dest ps).connections = s.connections ++ (if dest = .connections then ps else []) ∧
    (ylAdd s dest ps).outputs = s.outputs ++ (if dest = .outputs then ps else [])
  | [], s => by simp [ylAdd]
  | p :: ps, s => by
    have := ylAdd_lists dest ps (ylPush { s with cand := p } dest)
    rw [show ylAdd s dest (p :: ps) = ylAdd (ylPush { s with cand := p } dest) dest ps from rfl]
    cases dest <;> simp_all [ylPush]

theorem yl_split {α β : Type} {R : α → β → Prop} : ∀ {l₁ l₂ : List α} {r : List β}, List.Forall₂ R (l₁ ++ l₂) r →
    ∃ a b, List.Forall₂ R l₁ a ∧ List.Forall₂ R l₂ b ∧ r = a ++ b
  | [], _, r, h => ⟨[], r, .nil, h, rfl⟩
  | _ :: _, _, _, .cons h hl => by
    obtain ⟨a, b, ha, hb, rfl⟩ := yl_split hl
    exact ⟨_ :: a, b, .cons h ha, hb, rfl⟩

theorem yl_bind {α β : Type} {x : Except PyErr α} {f : α → Except PyErr β} {b : β} (h : (x >>= f) = .ok b) : ∃ a, x = .ok a ∧ f a = .ok b := by
  cases x with
  | error e => cases h
  | ok a => exact ⟨a, rfl, h⟩

/-- **C246**: data of the declared types reach the engine: its lists are the functions and the sheets of buses, generators and branches, the connections, the outputs, the tree and the options, entry by entry in their order, whatever was loaded in between -/
theorem C246_loaded_partial (cfg : YlCfg) (hstr : ∀ t, cfg.str (.text t) = t) (d : YlData) (bus gen bra : List XInfo)
    (hb : d.bus = some bus) (hg : d.generator = some gen) (hr : d.branch = some bra) (ts os cs ns us : List CInfo)
    (ht : List.Forall₂ YlTreeSame d.tree ts) (ho : List.Forall₂ YlOptionSame d.options os) (hc : List.Forall₂ YlInfo d.connections cs)
    (hn : List.Forall₂ YlInfo (d.functions ++ bus ++ gen ++ bra) ns) (hu : List.Forall₂ YlInfo d.outputs us) :
    ∃ s, ylLoad cfg d = .ok s ∧ s.network = ns ∧ s.tree = ts ∧ s.model = os ∧ s.connections = cs ∧ s.outputs = us := by
  obtain ⟨n3, rs, hn3, hrs, rfl⟩ : ∃ a b, List.Forall₂ YlInfo (d.functions ++ bus ++ gen) a ∧ List.Forall₂ YlInfo bra b ∧ ns = a ++ b :=
    yl_split hn
  obtain ⟨n2, gs, hn2, hgs, rfl⟩ : ∃ a b, List.Forall₂ YlInfo (d.functions ++ bus) a ∧ List.Forall₂ YlInfo gen b ∧ n3 = a ++ b :=
    yl_split hn3
  obtain ⟨fs, bs, hfs, hbs, rfl⟩ : ∃ a b, List.Forall₂ YlInfo d.functions a ∧ List.Forall₂ YlInfo bus b ∧ n2 = a ++ b :=
    yl_split hn2
  unfold ylLoad
  rw [yl_trees cfg ht, hb, hg, hr]
  simp only [bind, Except.bind]
  rw [yl_options cfg hstr ho]
  simp only
  rw [yl_elements cfg _ hc]
  simp only
  rw [yl_elements cfg _ hfs]
  simp only
  rw [yl_elements cfg _ hu]
  simp only
  rw [yl_elements cfg _ hbs]
  simp only
  rw [yl_elements cfg _ hgs]
  simp only
  rw [yl_elements cfg _ hrs]
  exact ⟨_, rfl, by simp [ylAdd_lists], by simp [ylAdd_lists], by simp [ylAdd_lists], by simp [ylAdd_lists], by simp [ylAdd_lists]⟩

/-- **C246 is false** without a sheet: if buses, generators or branches were not read, loading ends in an exception, whatever else was read -/
theorem C246_violated_sheet (cfg : YlCfg) (d : YlData) (h : d.bus = none ∨ d.generator = none ∨ d.branch = none) : ∃ e, ylLoad cfg d = .error e := by
  cases hl : ylLoad cfg d with
  | error e => exact ⟨e, rfl⟩
  | ok s =>
    exfalso
    unfold ylLoad at hl
    obtain ⟨s1, _, hl⟩ := yl_bind hl
    obtain ⟨s2, _, hl⟩ := yl_bind hl
    obtain ⟨s3, _, hl⟩ := yl_bind hl
    obtain ⟨s4, _, hl⟩ := yl_bind hl
    obtain ⟨s5, _, hl⟩ := yl_bind hl
    obtain ⟨s6, h6, hl⟩ := yl_bind hl
    obtain ⟨s7, h7, hl⟩ := yl_bind hl
    rcases h with h | h | h
    · rw [h] at h6
      cases h6
    · rw [h] at h7
      cases h7
    · rw [h] at hl
      cases hl

/-- **C246 is false** for options with other names: such an option takes the value that was loaded before it -/
theorem C246_violated_option (cfg : YlCfg) (s : YlStore) (o : YlOption) (he : o.engine = none)
    (hn : o.name ∉ ylDoubleOptions ++ ylStringOptions ++ ylBoolOptions) :
    ylOption cfg s o = .ok (ylPush { s with cand := ⟨[⟨"name".toList, .str o.name, []⟩], s.cand.value⟩ } .model) := by
  simp only [List.mem_append, not_or] at hn
  unfold ylOption ylCreate
  rw [yl_load_one cfg _ (.inr (.inr (.inl rfl))) (.str _)]
  simp only [bind, Except.bind, ylOptionEngine, he]
  unfold ylOptionValue
  rw [if_neg hn.1.1, if_neg hn.1.2, if_neg hn.2]
  simp [cLoad, cSetChar, cChar, pure, Except.pure]

/-- **C246 is false** for empty lists: the characteristic does not exist in the engine -/
theorem C246_violated_empty (cfg : YlCfg) (cand : CInfo) (dt : XDt) (hv : ¬ YlScalar dt) (name : Tok) : ylLoadValue cfg cand dt name (.many []) = .ok cand := by
  have : dt.isVec = true := by
    cases h : dt.isVec with
    | true => rfl
    | false => exact absurd (yl_scalar.mpr h) hv
  simp [ylLoadValue, this, ylIter, bind, Except.bind, pure, Except.pure]

/-! ## a case -/

/-- floats are refused for integers, texts are themselves -/
def exYlCfg : YlCfg := ⟨fun _ => .error .type, fun c => match c with | .text t => t | _ => []⟩

/-- a bus with its demand, given as a whole number -/
def exYlBus : XInfo :=
  { chars := [⟨"ID".toList, .one (.text "B1".toList), .string⟩, ⟨"subtype".toList, .many [.text "a".toList, .text "b".toList], .vString⟩, ⟨"number".toList, .one (.int 1), .integer⟩]
    value := .int 50, dt := .double }

/-- the bus in the engine -/
def exYlBusC : CInfo := ⟨[⟨"ID".toList, .str "B1".toList, []⟩, ⟨"subtype".toList, cNA, [.str "a".toList, .str "b".toList]⟩, ⟨"number".toList, .int 1, []⟩], .dbl 50⟩

/-- a case with one bus, an unknown option and the base power -/
def exYlData : YlData :=
  { tree := [⟨"weight".toList, "summer".toList, 1, 90⟩], options := [⟨"Sbase".toList, .int 100, none⟩, ⟨"DC OPF".toList, .bool true, some "pyene".toList⟩]
    bus := some [exYlBus], generator := some [], branch := some [] }

/-- the hypotheses of `C246_loaded_partial` are met -/
example : (∀ t, exYlCfg.str (.text t) = t) ∧ List.Forall₂ YlTreeSame exYlData.tree [⟨[⟨"name".toList, .str "weight".toList, []⟩, ⟨"name_node".toList, .str "summer".toList, []⟩, ⟨"level".toList, .int 1, []⟩], .dbl 90⟩] ∧
    List.Forall₂ YlOptionSame exYlData.options [⟨[⟨"name".toList, .str "Sbase".toList, []⟩], .dbl 100⟩, ⟨[⟨"name".toList, .str "DC OPF".toList, []⟩, ⟨"engine".toList, .str "pyene".toList, []⟩], .bool true⟩] ∧
    List.Forall₂ YlInfo ([] ++ [exYlBus] ++ [] ++ []) [exYlBusC] := by
  refine ⟨fun t => rfl, .cons ⟨by decide, rfl⟩ .nil, .cons ⟨rfl, .inl ⟨rfl, .whole 100⟩⟩ (.cons ⟨rfl, .inr (.inr ⟨by decide, .bool true⟩)⟩ .nil), .cons ⟨?_, by decide, by decide, .inr (.inl rfl), .whole 50⟩ .nil⟩
  refine .cons ⟨rfl, .inl ⟨.inr (.inr (.inl rfl)), _, rfl, .str _, rfl⟩⟩ (.cons ⟨rfl, .inr ⟨by simp [YlScalar], _, rfl, by simp, rfl, .cons (.vstr _) (.cons (.vstr _) .nil)⟩⟩ (.cons ⟨rfl, .inl ⟨.inl rfl, _, rfl, .int 1 (by decide), rfl⟩⟩ .nil))

/-- the option 'MIP gap', loaded after the base power, has the base power as its value -/
example : (ylLoad exYlCfg { exYlData with options := [⟨"Sbase".toList, .int 100, none⟩, ⟨"MIP gap".toList, .num (1/100), none⟩] }).toOption.map (fun s => s.model.map CInfo.value) = some [.dbl 100, .dbl 100] := by
  decide +kernel

end Pyensys
