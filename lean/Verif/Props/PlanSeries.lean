import Verif.Props.PlanData

/-!
# C166: time series of loads and flexibility
-/

namespace Pyensys

/-- what one bus adds to the lists of `get_time_series_data` -/
structure SeriesItem where
  p : List Rat
  q : List Rat
  vp : Rat
  vq : Rat
  up : List Rat
  dn : List Rat
  vu : Rat
  vd : Rat

def pdSeriesLook (d : PdSheets) (buses : List Int) (hour : Int) (k : Nat) : Except PyErr SeriesItem := do
  let bus ← npGet buses k
  match pdRowsOf d.p bus with
  | i :: _ =>
    let rp ← npGet d.p i
    let rq ← npGet d.q i
    let v ← pyGet rp.2 hour
    let ru ← npGet d.up i
    let rd ← npGet d.dn i
    let u ← pyGet ru.2 hour
    let w ← pyGet rd.2 hour
    .ok ⟨rp.2, rq.2, v, v, ru.2, rd.2, u, w⟩
  | [] => .ok ⟨List.replicate 24 0, List.replicate 24 0, 0, 0, List.replicate 24 0, List.replicate 24 0, 0, 0⟩

/-- the lists with an item more -/
def seriesApp (s : PdSeries) (a : SeriesItem) : PdSeries :=
  ⟨s.baseP ++ [a.p], s.baseQ ++ [a.q], s.peakP ++ [a.vp], s.peakQ ++ [a.vq], s.baseUp ++ [a.up], s.baseDn ++ [a.dn], s.peakUp ++ [a.vu], s.peakDn ++ [a.vd]⟩

/-- all lists have the same length (that of `baseP`, when the others start equal) -/
structure SeriesLen (s : PdSeries) (k : Nat) : Prop where
  p : s.baseP.length = k
  up : s.baseUp.length = k
  dn : s.baseDn.length = k

theorem pdSeriesBus_eq (d : PdSheets) (buses : List Int) (hour : Int) (s : PdSeries) (k : Nat) (h : SeriesLen s k) :
    pdSeriesBus d buses hour s k = pdSeriesLook d buses hour k >>= fun a => .ok (seriesApp s a) := by
  unfold pdSeriesBus pdSeriesLook
  cases npGet buses k with
  | error e => rfl
  | ok b =>
    simp only [bind, Except.bind]
    cases pdRowsOf d.p b with
    | nil => rfl
    | cons i t =>
      simp only
      cases npGet d.p i with
      | error e => rfl
      | ok rp =>
        simp only
        cases npGet d.q i with
        | error e => rfl
        | ok rq =>
          simp only [npGet_last _ _ _ h.p]
          cases hv : pyGet rp.2 hour with
          | error e => rfl
          | ok v =>
            simp only
            cases npGet d.up i with
            | error e => rfl
            | ok ru =>
              simp only
              cases npGet d.dn i with
              | error e => rfl
              | ok rd =>
                simp only [npGet_last _ _ _ h.up, npGet_last _ _ _ h.dn]
                cases pyGet ru.2 hour with
                | error e => rfl
                | ok u =>
                  simp only
                  cases pyGet rd.2 hour <;> rfl

theorem seriesLoop (d : PdSheets) (buses : List Int) (hour : Int) (n m : Nat) (s : PdSeries) (h : SeriesLen s m) :
    (List.range' m n).foldlM (pdSeriesBus d buses hour) s = (List.range' m n).mapM (pdSeriesLook d buses hour) >>= fun l => .ok (l.foldl seriesApp s) := by
  induction n generalizing m s with
  | zero => rfl
  | succ n ih =>
    rw [List.range'_succ, List.foldlM_cons, List.mapM_cons, pdSeriesBus_eq d buses hour s m h]
    cases hf : pdSeriesLook d buses hour m with
    | error e => rfl
    | ok a =>
      show (List.range' (m + 1) n).foldlM _ (seriesApp s a) = _
      rw [ih (m + 1) (seriesApp s a) ⟨by simp [seriesApp, h.p], by simp [seriesApp, h.up], by simp [seriesApp, h.dn]⟩]
      show _ = ((List.range' (m + 1) n).mapM (pdSeriesLook d buses hour) >>= fun t => Except.ok (a :: t)) >>= _
      cases (List.range' (m + 1) n).mapM (pdSeriesLook d buses hour) <;> rfl

theorem seriesApp_all (l : List SeriesItem) (s : PdSeries) : l.foldl seriesApp s =
    ⟨s.baseP ++ l.map (·.p), s.baseQ ++ l.map (·.q), s.peakP ++ l.map (·.vp), s.peakQ ++ l.map (·.vq), s.baseUp ++ l.map (·.up), s.baseDn ++ l.map (·.dn),
      s.peakUp ++ l.map (·.vu), s.peakDn ++ l.map (·.vd)⟩ := by
  induction l generalizing s with
  | nil => simp
  | cons a t ih => rw [List.foldl_cons, ih]; simp [seriesApp]

theorem getTimeSeries_eq (d : PdSheets) (n : Nat) (buses : List Int) (hour : Int) (s : PdSeries) : getTimeSeries d n buses hour = .ok s ↔
    ∃ l, (List.range n).mapM (pdSeriesLook d buses hour) = .ok l ∧
      s = ⟨l.map (·.p), l.map (·.q), l.map (·.vp), l.map (·.vq), l.map (·.up), l.map (·.dn), l.map (·.vu), l.map (·.vd)⟩ := by
  unfold getTimeSeries
  rw [List.range_eq_range', seriesLoop d buses hour n 0 _ ⟨rfl, rfl, rfl⟩, except_bind_ok]
  refine exists_congr fun l => and_congr_right fun _ => ?_
  rw [seriesApp_all, Except.ok.injEq]
  exact eq_comm

/-- the items of a bus -/
inductive ItemOf (d : PdSheets) (b : Int) (h : Nat) (a : SeriesItem) : Prop
  | row (i : Nat) (q u w : Int × List Rat) (first : FirstRow d.p b i) (p : d.p[i]? = some (b, a.p)) (q_row : d.q[i]? = some q) (q_val : q.2 = a.q)
      (up_row : d.up[i]? = some u) (up_val : u.2 = a.up) (dn_row : d.dn[i]? = some w) (dn_val : w.2 = a.dn) (vp : a.p[h]? = some a.vp) (vq : a.vq = a.vp)
      (vu : a.up[h]? = some a.vu) (vd : a.dn[h]? = some a.vd)
  | none (no : ∀ q ∈ d.p, q.1 ≠ b) (zero : a = ⟨List.replicate 24 0, List.replicate 24 0, 0, 0, List.replicate 24 0, List.replicate 24 0, 0, 0⟩)

theorem pdSeriesLook_iff (d : PdSheets) (buses : List Int) (h k : Nat) (a : SeriesItem) : pdSeriesLook d buses (h : Int) k = .ok a ↔
    ∃ b, buses[k]? = some b ∧ ItemOf d b h a := by
  unfold pdSeriesLook
  rw [except_bind_ok]
  refine exists_congr fun b => ?_
  rw [npGet_iff]
  refine and_congr_right fun _ => ?_
  rcases pdRowsOf_cons d.p b with ⟨h1, h2⟩ | ⟨i, t, h1, h2⟩
  · rw [h1]
    simp only [Except.ok.injEq]
    constructor
    · intro e; exact .none h2 e.symm
    · rintro (⟨i, q, u, w, first, p⟩ | ⟨_, e⟩)
      · exact absurd rfl (h2 _ (List.mem_of_getElem? p))
      · exact e.symm
  · rw [h1]
    simp only [except_bind_ok, npGet_iff, pyGet_nat_iff, Except.ok.injEq]
    constructor
    · rintro ⟨rp, hp, rq, hq, v, hv, ru, hu, rd, hd, u, hu', w, hw', rfl⟩
      obtain ⟨⟨r, hr⟩, h3⟩ := h2
      have : rp.1 = b := by rw [hr, Option.some.injEq] at hp; rw [← hp]
      exact .row i rq ru rd ⟨⟨r, hr⟩, h3⟩ (by rw [hp, ← this]) hq rfl hu rfl hd rfl hv rfl hu' hw'
    · rintro (⟨j, q, u, w, first, p, q1, q2, u1, u2, w1, w2, vp, vq, vu, vd⟩ | ⟨hn, _⟩)
      · have := firstRow_unique h2 first
        subst this
        refine ⟨_, p, q, q1, a.vp, vp, u, u1, w, w1, a.vu, by rw [u2]; exact vu, a.vd, by rw [w2]; exact vd, ?_⟩
        rw [q2, u2, w2]
        cases a
        simp_all
      · obtain ⟨⟨r, hr⟩, _⟩ := h2
        exact absurd rfl (hn _ (List.mem_of_getElem? hr))

/-- the sheets name the same buses in the same order -/
def SameBuses (d : PdSheets) : Prop := d.q.map (·.1) = d.p.map (·.1) ∧ d.up.map (·.1) = d.p.map (·.1) ∧ d.dn.map (·.1) = d.p.map (·.1)

/-- the hours of bus `b` in a sheet: its first row, or 24 zeros if it has none -/
def HoursOf (sheet : PdSheet) (b : Int) (l : List Rat) : Prop :=
  (∃ i, FirstRow sheet b i ∧ sheet[i]? = some (b, l)) ∨ ((∀ q ∈ sheet, q.1 ≠ b) ∧ l = List.replicate 24 0)

theorem firstRow_same {p q : PdSheet} (h : q.map (·.1) = p.map (·.1)) {b : Int} {i : Nat} (hf : FirstRow p b i) : FirstRow q b i := by
  have hk : ∀ j : Nat, (q[j]?).map (·.1) = (p[j]?).map (·.1) := by
    intro j
    rw [← List.getElem?_map, ← List.getElem?_map, h]
  obtain ⟨⟨r, hr⟩, h2⟩ := hf
  refine ⟨?_, ?_⟩
  · have := hk i
    rw [hr] at this
    cases hq : q[i]? with
    | none => rw [hq] at this; simp at this
    | some x =>
      rw [hq] at this
      simp only [Option.map_some, Option.some.injEq] at this
      exact ⟨x.2, by rw [← this]⟩
  · intro j x hj hx
    have := hk j
    rw [hx] at this
    cases hp : p[j]? with
    | none => rw [hp] at this; simp at this
    | some y =>
      rw [hp] at this
      simp only [Option.map_some, Option.some.injEq] at this
      rw [this]
      exact h2 j y hj hp

theorem noRow_same {p q : PdSheet} (h : q.map (·.1) = p.map (·.1)) {b : Int} (hn : ∀ x ∈ p, x.1 ≠ b) : ∀ x ∈ q, x.1 ≠ b := by
  intro x hx e
  have : x.1 ∈ p.map (·.1) := by rw [← h]; exact List.mem_map.2 ⟨x, hx, rfl⟩
  obtain ⟨y, hy, e2⟩ := List.mem_map.1 this
  exact hn y hy (e2.trans e)

/-- **C166**, if the sheets name the same buses in the same order: the lists have one entry for each bus, in the order of the buses: the hours of the bus in each of the four sheets, and
the value at the peak hour of active load and flexibility.  Missing: the peak of the reactive load. -/
theorem C166_series_partial (d : PdSheets) (n : Nat) (buses : List Int) (h : Nat) (s : PdSeries) (hd : SameBuses d) (hs : getTimeSeries d n buses (h : Int) = .ok s) :
    ∀ k, k < n → ∃ b, buses[k]? = some b ∧
      (∃ l v, s.baseP[k]? = some l ∧ HoursOf d.p b l ∧ s.peakP[k]? = some v ∧ PeakOf d.p h b v) ∧
      (∃ l, s.baseQ[k]? = some l ∧ HoursOf d.q b l) ∧
      (∃ l v, s.baseUp[k]? = some l ∧ HoursOf d.up b l ∧ s.peakUp[k]? = some v ∧ PeakOf d.up h b v) ∧
      (∃ l v, s.baseDn[k]? = some l ∧ HoursOf d.dn b l ∧ s.peakDn[k]? = some v ∧ PeakOf d.dn h b v) := by
  obtain ⟨l, hl, rfl⟩ := (getTimeSeries_eq d n buses h s).1 hs
  rw [mapM_range_iff] at hl
  intro k hk
  obtain ⟨a, ha, hf⟩ := hl.2 k hk
  obtain ⟨b, hb, hi⟩ := (pdSeriesLook_iff d buses h k a).1 hf
  refine ⟨b, hb, ?_⟩
  simp only [List.getElem?_map, ha, Option.map_some, Option.some.injEq, exists_and_left, exists_eq_left']
  obtain ⟨e1, e2, e3⟩ := hd
  rcases hi with ⟨i, q, u, w, first, p, q1, q2, u1, u2, w1, w2, vp, vq, vu, vd⟩ | ⟨hn, rfl⟩
  · have key : ∀ {sh : PdSheet} {x : Int × List Rat} {v : List Rat}, sh.map (·.1) = d.p.map (·.1) → sh[i]? = some x → x.2 = v → FirstRow sh b i ∧ sh[i]? = some (b, v) := by
      intro sh x v he hx hv
      have hf := firstRow_same he first
      obtain ⟨⟨r, hr⟩, _⟩ := id hf
      rw [hx, Option.some.injEq] at hr
      refine ⟨hf, ?_⟩
      rw [hx, hr, ← hv, hr]
    obtain ⟨fq, kq⟩ := key e1 q1 q2
    obtain ⟨fu, ku⟩ := key e2 u1 u2
    obtain ⟨fw, kw⟩ := key e3 w1 w2
    exact ⟨⟨.inl ⟨i, first, p⟩, .inl ⟨i, a.p, first, p, vp⟩⟩, .inl ⟨i, fq, kq⟩, ⟨.inl ⟨i, fu, ku⟩, .inl ⟨i, a.up, fu, ku, vu⟩⟩, .inl ⟨i, fw, kw⟩, .inl ⟨i, a.dn, fw, kw, vd⟩⟩
  · exact ⟨⟨.inr ⟨hn, rfl⟩, .inr ⟨hn, rfl⟩⟩, .inr ⟨noRow_same e1 hn, rfl⟩, ⟨.inr ⟨noRow_same e2 hn, rfl⟩, .inr ⟨noRow_same e2 hn, rfl⟩⟩,
      .inr ⟨noRow_same e3 hn, rfl⟩, .inr ⟨noRow_same e3 hn, rfl⟩⟩

/-- **C166 fails**: the peaks of the reactive load are those of the active load, whatever the reactive loads are. -/
theorem C166_reactive_violated (d : PdSheets) (n : Nat) (buses : List Int) (h : Nat) (s : PdSeries) (hs : getTimeSeries d n buses (h : Int) = .ok s) :
    s.peakQ = s.peakP := by
  obtain ⟨l, hl, rfl⟩ := (getTimeSeries_eq d n buses h s).1 hs
  rw [mapM_range_iff] at hl
  apply List.map_congr_left
  intro a ha
  obtain ⟨k, hk, rfl⟩ := List.getElem_of_mem ha
  obtain ⟨c, hc, hf⟩ := hl.2 k (by omega)
  rw [List.getElem?_eq_getElem hk, Option.some.injEq] at hc
  subst hc
  obtain ⟨b, _, hi⟩ := (pdSeriesLook_iff d buses h k _).1 hf
  rcases hi with ⟨i, q, u, w, first, p, q1, q2, u1, u2, w1, w2, vp, vq, vu, vd⟩ | ⟨hn, e⟩
  · exact vq
  · rw [e]

/-- The loads at the peak hour are those of the screening tool. -/
theorem C166_same_peak_partial (d : PdSheets) (n : Nat) (buses : List Int) (h : Nat) (s : PdSeries) (hs : getTimeSeries d n buses (h : Int) = .ok s) :
    getPeakData d.p n buses (h : Int) = .ok s.peakP := by
  obtain ⟨l, hl, rfl⟩ := (getTimeSeries_eq d n buses h s).1 hs
  rw [mapM_range_iff] at hl
  refine (C165_peak _ _ _ _ _).2 ⟨by rw [List.length_map, hl.1], ?_⟩
  intro k hk
  obtain ⟨a, ha, hf⟩ := hl.2 k hk
  obtain ⟨b, hb, hi⟩ := (pdSeriesLook_iff d buses h k a).1 hf
  refine ⟨b, a.vp, hb, by simp [ha], ?_⟩
  rcases hi with ⟨i, q, u, w, first, p, q1, q2, u1, u2, w1, w2, vp, vq, vu, vd⟩ | ⟨hn, e⟩
  · exact .inl ⟨i, a.p, first, p, vp⟩
  · exact .inr ⟨hn, by rw [e]⟩

def exSheets : PdSheets := ⟨[(1, [10, 20]), (2, [30, 40])], [(1, [1, 2]), (2, [3, 4])], [(1, [5, 5]), (2, [6, 6])], [(1, [7, 7]), (2, [8, 8])]⟩

/-- the sheet of the upward flexibility in another order of buses -/
def exSheetsSwapped : PdSheets := ⟨exSheets.p, exSheets.q, [(2, [6, 6]), (1, [5, 5])], exSheets.dn⟩

theorem C166_witness : SameBuses exSheets ∧ (getTimeSeries exSheets 3 [2, 1, 3] (1 : Nat)).toOption =
    some ⟨[[30, 40], [10, 20], List.replicate 24 0], [[3, 4], [1, 2], List.replicate 24 0], [40, 20, 0], [40, 20, 0], [[6, 6], [5, 5], List.replicate 24 0],
      [[8, 8], [7, 7], List.replicate 24 0], [6, 5, 0], [8, 7, 0]⟩ := ⟨⟨rfl, rfl, rfl⟩, by decide +kernel⟩

/-- **C166 fails** if the sheets have different orders: bus 1 gets the upward flexibility of bus 2. -/
theorem C166_order_violated : (getTimeSeries exSheetsSwapped 2 [1, 2] (1 : Nat)).toOption.map (·.peakUp) = some [6, 5] ∧
    PeakOf exSheetsSwapped.up 1 1 5 ∧ PeakOf exSheetsSwapped.up 1 2 6 := by
  refine ⟨by decide +kernel, .inl ⟨1, [5, 5], ⟨⟨_, rfl⟩, ?_⟩, rfl, rfl⟩, .inl ⟨0, [6, 6], ⟨⟨_, rfl⟩, ?_⟩, rfl, rfl⟩⟩
  · intro j q hj hq
    have : j = 0 := by omega
    subst this
    simp only [exSheetsSwapped, List.getElem?_cons_zero, Option.some.injEq] at hq
    subst hq
    decide
  · intro j q hj
    omega

end Pyensys
