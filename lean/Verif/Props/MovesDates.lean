import Verif.Model.MovesDates
import Verif.Props.MovesFvc

/-!
# C82: moves joined with FVC measurements by time (`get_posmoves_with_fvc_data_using_dates`)
-/

namespace Verif.Props.MovesDates
open Verif.Py
open Verif.Model.MovesDates
open Verif.Props.FpMetrology (bind_inv forall₂_mem forall₂_mem' mapM_ok_of)
open Verif.Props.MovesFvc (fold_get last_iff)

variable {ι κ δ γ : Type}

/-! ### Specification -/

/-- The image for a time: the first one after it, not later than the longest delay. The last image of all is also used for a move at the very
same time. -/
def Image (dmt : List (Img κ)) (off dmax : ℚ) (t : ℤ) (i : Img κ) : Prop :=
  ∃ a b, dmt = a ++ i :: b ∧ (∀ j ∈ a, (j.t : ℚ) + off ≤ t) ∧
    (((t : ℚ) < i.t + off ∧ (i.t : ℚ) + off ≤ t + dmax) ∨ (b = [] ∧ (i.t : ℚ) + off = t ∧ 0 ≤ dmax))

/-- The measurement at a location for a time: the first row of the location in the file of the image for this time. -/
def Measured (dmt : List (Img κ)) (read : κ → Option (List Spot)) (off dmax : ℚ) (loc : ℤ) (t : ℤ) (s : Seen) : Prop :=
  ∃ i tab a r b, Image dmt off dmax t i ∧ read i.file = some tab ∧ tab = a ++ r :: b ∧ (∀ q ∈ a, q.loc ≠ loc) ∧ r.loc = loc ∧
    s = ⟨t, i.t, i.t + off - t, r.x, r.y⟩

/-- The calibration for a time: the last one before. -/
def InForce (l : List (Calib γ)) (t : ℤ) (c : Calib γ) : Prop := ∃ a b, l = a ++ c :: b ∧ c.t < t ∧ ∀ d ∈ b, t ≤ d.t

/-- The row of a move. -/
def RowOf (dmt : List (Img κ)) (read : κ → Option (List Spot)) (off dmax : ℚ) (nocalib : Bool) (calibs : List (Calib γ)) (petal dev : ℤ)
    (m : Move δ) (r : Out δ γ) : Prop :=
  r.loc = petal ∧ r.move = m ∧ Measured dmt read off dmax (petal * 1000 + dev) m.t r.seen ∧
    ((nocalib = true ∧ r.calib = none) ∨ (nocalib = false ∧ ∃ c, r.calib = some c ∧ InForce calibs m.t c))

/-- The moves that have a measurement. -/
def HasMeas (dmt : List (Img κ)) (read : κ → Option (List Spot)) (off dmax : ℚ) (times : List ℤ) (loc : ℤ) (m : Move δ) : Prop :=
  m.t ∈ times ∧ ∃ s, Measured dmt read off dmax loc m.t s

/-- What is written for a positioner: nothing if no move has a measurement; otherwise a row for each of these, sorted by time, unless it was
measured at `X = 0`. -/
def Turn (db : Db ι δ γ) (dmt : List (Img κ)) (read : κ → Option (List Spot)) (off dmax : ℚ) (nocalib : Bool) (petal : ℕ) (loc : ℤ)
    (q : ι × ℤ) (o : Option (ι × List (Out δ γ))) : Prop :=
  ∃ moves rows, moves.Perm ((db.moves petal q.1).filter fun m =>
      @decide (HasMeas dmt read off dmax (db.times petal) (loc * 1000 + q.2) m) (Classical.propDecidable _)) ∧
    moves.Pairwise (fun m m' => m.t ≤ m'.t) ∧
    List.Forall₂ (RowOf dmt read off dmax nocalib (db.calibs petal q.1) loc q.2) moves rows ∧
    o = if moves.length = 0 then none else some (q.1, rows.filter fun r => decide (r.seen.x ≠ 0))

/-- Sorting by time. -/
def Sorts (order : List (Move δ) → List (Move δ)) : Prop := ∀ l, (order l).Perm l ∧ (order l).Pairwise fun m m' => m.t ≤ m'.t

/-! ### Matching images -/

theorem find_index (dmt : List (Img κ)) (off : ℚ) (t : ℤ) (n : ℕ) :
    (∃ a i b, dmt = a ++ i :: b ∧ (∀ j ∈ a, (j.t : ℚ) + off ≤ t) ∧ (t : ℚ) < i.t + off ∧ index (dmt.map Img.t) off n t = a.length) ∨
    ((∀ j ∈ dmt, (j.t : ℚ) + off ≤ t) ∧ index (dmt.map Img.t) off n t = n - 1) := by
  unfold index
  cases h : (dmt.map Img.t).findIdx? fun (f : ℤ) => decide ((t : ℚ) < f + off) with
  | none =>
    right
    refine ⟨?_, rfl⟩
    intro j hj
    rw [List.findIdx?_eq_none_iff] at h
    have := h j.t (List.mem_map.2 ⟨j, hj, rfl⟩)
    simpa using this
  | some k =>
    left
    obtain ⟨hk, h1, h2⟩ := List.findIdx?_eq_some_iff_getElem.1 h
    have hk' : k < dmt.length := by simpa using hk
    refine ⟨dmt.take k, dmt[k], dmt.drop (k + 1), ?_, ?_, ?_, ?_⟩
    · rw [List.getElem_cons_drop, List.take_append_drop]
    · intro j hj
      obtain ⟨m, hm, rfl⟩ := List.mem_take_iff_getElem.1 hj
      have hm' : m < k := by omega
      have := h2 m hm'
      rw [List.getElem_map] at this
      simpa using this
    · rw [List.getElem_map] at h1
      simpa using h1
    · show k = _
      rw [List.length_take]
      omega

theorem image_unique {dmt : List (Img κ)} {off dmax : ℚ} {t : ℤ} {i i' : Img κ} (h : Image dmt off dmax t i) (h' : Image dmt off dmax t i') :
    i = i' := by
  obtain ⟨a, b, e, ha, hi⟩ := h
  obtain ⟨a', b', e', ha', hi'⟩ := h'
  rw [e] at e'
  rcases List.append_eq_append_iff.1 e' with ⟨c, h1, h2⟩ | ⟨c, h1, h2⟩
  · cases c with
    | nil => injection h2
    | cons x c =>
      injection h2 with h2 h3
      subst h2
      have := ha' i (by rw [h1]; simp)
      rcases hi with ⟨hi, -⟩ | ⟨hb, -⟩
      · linarith
      · rw [h3] at hb; simp at hb
  · cases c with
    | nil => injection h2 with h2; exact h2.symm
    | cons x c =>
      injection h2 with h2 h3
      subst h2
      have := ha i' (by rw [h1]; simp)
      rcases hi' with ⟨hi, -⟩ | ⟨hb, -⟩
      · linarith
      · rw [h3] at hb; simp at hb

theorem image_index {dmt : List (Img κ)} (hne : dmt ≠ []) (off dmax : ℚ) (t : ℤ) :
    ∃ i, dmt[index (dmt.map Img.t) off dmt.length t]? = some i ∧
      ((0 ≤ (i.t : ℚ) + off - t ∧ (i.t : ℚ) + off - t ≤ dmax) ↔ Image dmt off dmax t i) ∧
      ∀ i', Image dmt off dmax t i' → i' = i := by
  rcases find_index dmt off t dmt.length with ⟨a, i, b, e, ha, hi, hidx⟩ | ⟨hall, hidx⟩
  · have key : ((0 ≤ (i.t : ℚ) + off - t ∧ (i.t : ℚ) + off - t ≤ dmax) ↔ Image dmt off dmax t i) := by
      constructor
      · rintro ⟨-, h2⟩
        exact ⟨a, b, e, ha, Or.inl ⟨hi, by linarith⟩⟩
      · rintro ⟨_, _, -, -, ⟨h1, h2⟩ | ⟨-, h1, h2⟩⟩
        · constructor <;> linarith
        · constructor <;> linarith
    refine ⟨i, ?_, key, ?_⟩
    · rw [hidx, e]; simp
    · rintro i' ⟨a', b', e', ha', hi'⟩
      rw [e] at e'
      rcases List.append_eq_append_iff.1 e' with ⟨c, h1, h2⟩ | ⟨c, h1, h2⟩
      · cases c with
        | nil => injection h2 with h2; exact h2.symm
        | cons x c =>
          injection h2 with h2 h3
          subst h2
          have := ha' i (by rw [h1]; simp)
          linarith
      · cases c with
        | nil => injection h2 
        | cons x c =>
          injection h2 with h2 h3
          subst h2
          have := ha i' (by rw [h1]; simp)
          rcases hi' with ⟨hi', -⟩ | ⟨hb, -⟩
          · linarith
          · rw [h3] at hb; simp at hb
  · obtain ⟨a, i, e⟩ : ∃ a i, dmt = a ++ [i] := ⟨dmt.dropLast, dmt.getLast hne, (List.dropLast_append_getLast hne).symm⟩
    have hi := hall i (by rw [e]; simp)
    refine ⟨i, ?_, ?_, ?_⟩
    · rw [hidx, e]; simp
    · constructor
      · rintro ⟨h1, h2⟩
        have : (i.t : ℚ) + off = t := by linarith
        exact ⟨a, [], e, fun j hj => hall j (by rw [e]; exact List.mem_append_left _ hj), Or.inr ⟨rfl, this, by linarith⟩⟩
      · rintro ⟨_, _, -, -, ⟨h1, h2⟩ | ⟨-, h1, h2⟩⟩
        · constructor <;> linarith
        · constructor <;> linarith
    · rintro i' ⟨a', b', e', ha', hi'⟩
      rcases hi' with ⟨h, -⟩ | ⟨rfl, -⟩
      · have := hall i' (by rw [e']; simp)
        linarith
      · rw [e] at e'
        have := List.append_inj' e' rfl
        injection this.2 with h
        exact h.symm

/-- **C82** With images sorted by time, the image for a time is the nearest one after it: no other image is between. -/
theorem C82_nearest {dmt : List (Img κ)} (hs : dmt.Pairwise fun i j => i.t ≤ j.t) {off dmax : ℚ} {t : ℤ} {i : Img κ}
    (h : Image dmt off dmax t i) : (t : ℚ) ≤ i.t + off ∧ (i.t : ℚ) + off ≤ t + dmax ∧ ∀ j ∈ dmt, (t : ℚ) < j.t + off → i.t ≤ j.t := by
  obtain ⟨a, b, e, ha, hi⟩ := h
  refine ⟨?_, ?_, ?_⟩
  · rcases hi with ⟨h, -⟩ | ⟨-, h, -⟩ <;> linarith
  · rcases hi with ⟨-, h⟩ | ⟨-, h, h'⟩ <;> linarith
  · intro j hj hlt
    rw [e] at hj hs
    rcases List.mem_append.1 hj with hj | hj
    · have := ha j hj
      linarith
    · rcases List.mem_cons.1 hj with rfl | hj
      · exact le_refl _
      · exact (List.pairwise_cons.1 (List.pairwise_append.1 hs).2.1).1 j hj

theorem getIdx_some {α : Type} {l : List α} {k : ℕ} {x : α} (h : l[k]? = some x) : getIdx l k = .ok x := by
  unfold getIdx; rw [h]

/-- `f` is the time of the image at the index found for `t`. -/
def At (dmt : List (Img κ)) (off : ℚ) (t f : ℤ) : Prop := ∃ i, dmt[index (dmt.map Img.t) off dmt.length t]? = some i ∧ f = i.t

/-- The measurements of the petal when the variable `tstamp_fvc` has its initial value. -/
theorem seen_iff {dmt : List (Img κ)} {read : κ → Option (List Spot)} {off dmax : ℚ} {times : List ℤ} (locs : List (ι × ℤ))
    (hne : times = [] ∨ dmt ≠ []) :
    ∃ ms seen, matchTimes (dmt.map Img.t) off dmt.length times = .ok ms ∧ (select off dmax ms).mapM (collect dmt read off locs) = .ok seen ∧
      (∀ p s, (p, s) ∈ seen.flatten ↔ ∃ loc, (p, loc) ∈ locs ∧ s.t ∈ times ∧ Measured dmt read off dmax loc s.t s) ∧
      ms.length = times.length ∧ ∀ m ∈ ms, ∃ t ∈ times, At dmt off t m.tf := by
  have hm : ∃ ms, matchTimes (dmt.map Img.t) off dmt.length times = .ok ms := by
    unfold matchTimes
    apply mapM_ok_of
    intro t ht
    obtain ⟨i, h1, -⟩ := image_index (hne.resolve_left (List.ne_nil_of_mem ht)) off dmax t
    have h2 : (dmt.map Img.t)[index (dmt.map Img.t) off dmt.length t]? = some i.t := by rw [List.getElem?_map, h1]; rfl
    rw [getIdx_some h2]
    exact ⟨_, rfl⟩
  obtain ⟨ms, hms⟩ := hm
  have hf := hms
  unfold matchTimes at hf
  rw [Gpm.mapM_iff] at hf
  have one : ∀ t ∈ times, ∀ m : Match, (do
      let f ← getIdx (dmt.map Img.t) (index (dmt.map Img.t) off dmt.length t)
      return (⟨t, index (dmt.map Img.t) off dmt.length t, f⟩ : Match)) = Except.ok m →
      m.t = t ∧ m.idx = index (dmt.map Img.t) off dmt.length t ∧ ∃ i, dmt[m.idx]? = some i ∧ m.tf = i.t ∧
      ((0 ≤ m.deltat off ∧ m.deltat off ≤ dmax) ↔ Image dmt off dmax t i) ∧ ∀ i', Image dmt off dmax t i' → i' = i := by
    intro t ht m h
    obtain ⟨i, h1, h3, h4⟩ := image_index (hne.resolve_left (List.ne_nil_of_mem ht)) off dmax t
    have h2 : (dmt.map Img.t)[index (dmt.map Img.t) off dmt.length t]? = some i.t := by rw [List.getElem?_map, h1]; rfl
    rw [getIdx_some h2] at h
    injection h with h
    subst h
    exact ⟨rfl, rfl, i, h1, rfl, h3, h4⟩
  have hsel : ∀ m ∈ ms, m.t ∈ times ∧ ∃ i, dmt[m.idx]? = some i ∧ m.tf = i.t ∧
      ((0 ≤ m.deltat off ∧ m.deltat off ≤ dmax) ↔ Image dmt off dmax m.t i) ∧ ∀ i', Image dmt off dmax m.t i' → i' = i := by
    intro m hmm
    obtain ⟨t, ht, h⟩ := forall₂_mem' hf hmm
    obtain ⟨rfl, -, h⟩ := one t ht m h
    exact ⟨ht, h⟩
  have hcol : ∃ seen, (select off dmax ms).mapM (collect dmt read off locs) = .ok seen := by
    apply mapM_ok_of
    intro m hmm
    obtain ⟨-, i, h1, -⟩ := hsel m (List.mem_of_mem_filter hmm)
    unfold collect
    rw [getIdx_some h1]
    show ∃ b, (match read i.file with | none => _ | some tab => _) = Except.ok b
    split <;> exact ⟨_, rfl⟩
  obtain ⟨seen, hseen⟩ := hcol
  refine ⟨ms, seen, hms, hseen, ?_, (List.Forall₂.length_eq hf).symm, ?_⟩
  swap
  · intro m hmm
    obtain ⟨t, ht, h⟩ := forall₂_mem' hf hmm
    obtain ⟨rfl, h0, i, h1, h2, -⟩ := one t ht m h
    rw [h0] at h1
    exact ⟨_, ht, i, h1, h2⟩
  rw [Gpm.mapM_iff] at hseen
  have hone : ∀ m ∈ ms, ∀ l, collect dmt read off locs m = .ok l → ∀ i, dmt[m.idx]? = some i → m.tf = i.t → ∀ p s,
      (p, s) ∈ l ↔ ∃ loc tab a r b, (p, loc) ∈ locs ∧ read i.file = some tab ∧ tab = a ++ r :: b ∧ (∀ q ∈ a, q.loc ≠ loc) ∧ r.loc = loc ∧
        s = ⟨m.t, i.t, i.t + off - m.t, r.x, r.y⟩ := by
    intro m hmm l hl i hi htf p s
    unfold collect at hl
    rw [getIdx_some hi] at hl
    change (match read i.file with | none => _ | some tab => _) = Except.ok l at hl
    split at hl
    · rename_i hr
      injection hl with hl
      subst hl
      constructor
      · intro h; cases h
      · rintro ⟨loc, tab, a, r, b, -, h, -⟩
        rw [hr] at h
        cases h
    · rename_i tab hr
      injection hl with hl
      subst hl
      rw [List.mem_filterMap]
      constructor
      · rintro ⟨⟨p', loc⟩, hq, h⟩
        obtain ⟨s', h1, h2⟩ := Option.map_eq_some_iff.1 h
        injection h2 with h2 h3
        subst h2 h3
        unfold seenIn at h1
        obtain ⟨r, h3, h4⟩ := Option.map_eq_some_iff.1 h1
        obtain ⟨h5, a, b, h6, h7⟩ := List.find?_eq_some_iff_append.1 h3
        refine ⟨loc, tab, a, r, b, hq, hr, h6, ?_, by simpa using h5, ?_⟩
        · intro q hq'
          simpa using h7 q hq'
        · rw [← h4]
          unfold Match.deltat
          rw [htf]
      · rintro ⟨loc, tab', a, r, b, hq, hr', e, ha, hloc, rfl⟩
        rw [hr] at hr'
        injection hr' with hr'
        subst hr'
        refine ⟨(p, loc), hq, ?_⟩
        unfold seenIn
        have : (tab.find? fun s => decide (s.loc = loc)) = some r :=
          List.find?_eq_some_iff_append.2 ⟨by simpa using hloc, a, b, e, fun q hq' => by simpa using ha q hq'⟩
        dsimp only
        rw [this]
        unfold Match.deltat
        rw [htf]
        rfl
  intro p s
  rw [List.mem_flatten]
  constructor
  · rintro ⟨l, hl, hps⟩
    obtain ⟨m, hmm, hc⟩ := forall₂_mem' hseen hl
    have hm' := List.mem_filter.1 hmm
    obtain ⟨h1, i, h2, h3, h4, -⟩ := hsel m hm'.1
    obtain ⟨loc, tab, a, r, b, k1, k2, k3, k4, k5, rfl⟩ := (hone m hm'.1 l hc i h2 h3 p s).1 hps
    exact ⟨loc, k1, h1, i, tab, a, r, b, h4.1 (by simpa using hm'.2), k2, k3, k4, k5, rfl⟩
  · rintro ⟨loc, hq, ht, i', tab, a, r, b, hi', k2, k3, k4, k5, hs⟩
    obtain ⟨m, hmm, h⟩ := forall₂_mem hf ht
    obtain ⟨e, -, i, h2, h3, h4, h5⟩ := one s.t ht m h
    have := h5 i' hi'
    subst this
    have hsm : m ∈ select off dmax ms := List.mem_filter.2 ⟨hmm, by simpa using h4.2 hi'⟩
    obtain ⟨l, hl, hc⟩ := forall₂_mem hseen hsm
    refine ⟨l, hl, (hone m hmm l hc i' h2 h3 p s).2 ⟨loc, tab, a, r, b, hq, k2, k3, k4, k5, ?_⟩⟩
    rw [e]
    exact hs

theorem measured_unique {dmt : List (Img κ)} {read : κ → Option (List Spot)} {off dmax : ℚ} {loc t : ℤ} {s s' : Seen}
    (h : Measured dmt read off dmax loc t s) (h' : Measured dmt read off dmax loc t s') : s = s' := by
  obtain ⟨i, tab, a, r, b, h1, h2, h3, h4, h5, rfl⟩ := h
  obtain ⟨i', tab', a', r', b', h1', h2', h3', h4', h5', rfl⟩ := h'
  have := image_unique h1 h1'
  subst this
  rw [h2] at h2'
  injection h2' with h2'
  subst h2'
  have e1 : (tab.find? fun s => decide (s.loc = loc)) = some r :=
    List.find?_eq_some_iff_append.2 ⟨by simpa using h5, a, b, h3, fun q hq' => by simpa using h4 q hq'⟩
  have e2 : (tab.find? fun s => decide (s.loc = loc)) = some r' :=
    List.find?_eq_some_iff_append.2 ⟨by simpa using h5', a', b', h3', fun q hq' => by simpa using h4' q hq'⟩
  rw [e1] at e2
  injection e2 with e2
  subst e2
  rfl

theorem lookup_iff {P : ℤ → Seen → Prop} (hP : ∀ t s s', P t s → P t s' → s = s') {seen : List Seen} {times : List ℤ}
    (h : ∀ s, s ∈ seen ↔ s.t ∈ times ∧ P s.t s) (hPt : ∀ t s, P t s → s.t = t) (t : ℤ) (s : Seen) :
    lookup seen t = .ok s ↔ t ∈ times ∧ P t s := by
  unfold lookup byTime
  have e : (seen.foldl (fun (d : Dict ℤ Seen) s => d.set s.t s) []).get? t = ((seen.filter fun r => decide (r.t = t))).getLast? := by
    have := fold_get Seen.t id seen t []
    rw [List.map_id] at this
    rw [show (fun (d : Dict ℤ Seen) (s : Seen) => d.set s.t s) = fun (d : Dict ℤ Seen) (r : Seen) => d.set r.t (id r) from rfl, this]
    cases (seen.filter fun r => decide (r.t = t)).getLast? <;> rfl
  rw [e]
  cases hl : (seen.filter fun r => decide (r.t = t)).getLast? with
  | none =>
    constructor
    · intro h; cases h
    · rintro ⟨h1, h2⟩
      have h3 := hPt t s h2
      have : s ∈ seen.filter fun r => decide (r.t = t) := List.mem_filter.2 ⟨(h s).2 (by rw [h3]; exact ⟨h1, h2⟩), by simpa using h3⟩
      rw [List.getLast?_eq_none_iff] at hl
      rw [hl] at this
      cases this
  | some x =>
    have hx := List.mem_filter.1 (List.mem_of_getLast? hl)
    have hxt : x.t = t := by simpa using hx.2
    obtain ⟨h1, h2⟩ := (h x).1 hx.1
    rw [hxt] at h1 h2
    constructor
    · intro h
      injection h with h
      subst h
      exact ⟨h1, h2⟩
    · rintro ⟨-, h4⟩
      rw [hP t s x h4 h2]

theorem lastCalib_iff (l : List (Calib γ)) (t : ℤ) (c : Calib γ) : lastCalib l t = .ok c ↔ InForce l t c := by
  unfold lastCalib InForce
  have := last_iff (fun c : Calib γ => c.t < t) l
  cases hl : (l.filter fun c => decide (c.t < t)).getLast? with
  | none =>
    constructor
    · intro h; cases h
    · rintro ⟨a, b, h1, h2, h3⟩
      rw [(this c).2 ⟨h2, a, b, h1, fun q hq => by have := h3 q hq; omega⟩] at hl
      cases hl
  | some x =>
    constructor
    · intro h
      injection h with h
      subst h
      obtain ⟨h2, a, b, h1, h3⟩ := (this x).1 hl
      exact ⟨a, b, h1, h2, fun q hq => by have := h3 q hq; omega⟩
    · rintro ⟨a, b, h1, h2, h3⟩
      rw [(this c).2 ⟨h2, a, b, h1, fun q hq => by have := h3 q hq; omega⟩] at hl
      injection hl with hl
      rw [hl]

theorem calibOf_iff (nocalib : Bool) (l : List (Calib γ)) (t : ℤ) (o : Option (Calib γ)) :
    calibOf nocalib l t = .ok o ↔ (nocalib = true ∧ o = none) ∨ (nocalib = false ∧ ∃ c, o = some c ∧ InForce l t c) := by
  unfold calibOf
  cases nocalib with
  | true =>
    rw [if_pos rfl]
    constructor
    · intro h; injection h with h; exact Or.inl ⟨rfl, h.symm⟩
    · rintro (⟨-, rfl⟩ | ⟨h, -⟩)
      · rfl
      · cases h
  | false =>
    rw [if_neg (by simp)]
    constructor
    · intro h
      obtain ⟨c, hc, h⟩ := bind_inv h
      injection h with h
      exact Or.inr ⟨rfl, c, h.symm, (lastCalib_iff l t c).1 hc⟩
    · rintro (⟨h, -⟩ | ⟨-, c, rfl, hc⟩)
      · cases h
      · rw [(lastCalib_iff l t c).2 hc]; rfl

/-! ### One positioner -/

section
variable {order : List (Move δ) → List (Move δ)} {db : Db ι δ γ} {dmt : List (Img κ)} {read : κ → Option (List Spot)} {off dmax : ℚ}
  {nocalib : Bool} {petal : ℕ} {loc : ℤ} {q : ι × ℤ} {seen : List Seen}

theorem measured_t {loc t : ℤ} {s : Seen} (h : Measured dmt read off dmax loc t s) : s.t = t := by
  obtain ⟨i, tab, a, r, b, -, -, -, -, -, rfl⟩ := h
  rfl

theorem filter_eq (h : ∀ s, s ∈ seen ↔ s.t ∈ db.times petal ∧ Measured dmt read off dmax (loc * 1000 + q.2) s.t s) :
    ((db.moves petal q.1).filter fun m => decide (m.t ∈ seen.map Seen.t)) = (db.moves petal q.1).filter fun m =>
      @decide (HasMeas dmt read off dmax (db.times petal) (loc * 1000 + q.2) m) (Classical.propDecidable _) := by
  apply List.filter_congr
  intro m _
  apply decide_eq_decide.2
  rw [List.mem_map]
  constructor
  · rintro ⟨s, hs, e⟩
    have := (h s).1 hs
    rw [e] at this
    exact ⟨this.1, s, this.2⟩
  · rintro ⟨h1, s, h2⟩
    have e := measured_t h2
    exact ⟨s, (h s).2 (by rw [e]; exact ⟨h1, h2⟩), e⟩

theorem onePositioner_ok (ho : Sorts order)
    (h : ∀ s, s ∈ seen ↔ s.t ∈ db.times petal ∧ Measured dmt read off dmax (loc * 1000 + q.2) s.t s) {o : Option (List ℤ × List (Out δ γ))}
    (hr : onePositioner order db nocalib petal loc q.1 seen = .ok o) :
    Turn db dmt read off dmax nocalib petal loc q (o.map fun r => (q.1, r.2)) ∧
    ∀ r, o = some r → r.1.length ≤ (db.moves petal q.1).length ∧ r.1 ≠ [] ∧ (∀ f ∈ r.1, ∃ t ∈ db.times petal, At dmt off t f) := by
  unfold onePositioner at hr
  dsimp only at hr
  rw [filter_eq h] at hr
  unfold Turn
  generalize hF : ((db.moves petal q.1).filter fun m =>
    @decide (HasMeas dmt read off dmax (db.times petal) (loc * 1000 + q.2) m) (Classical.propDecidable _)) = F at hr ⊢
  have hlen : F.length ≤ (db.moves petal q.1).length := by rw [← hF]; exact List.length_filter_le _ _
  split at hr
  · rename_i he
    injection hr with hr
    subst hr
    exact ⟨⟨[], [], by rw [he], List.Pairwise.nil, List.Forall₂.nil, rfl⟩, by intro r hr; cases hr⟩
  · rename_i hne
    obtain ⟨hp, hsort⟩ := ho F
    generalize order F = moves at hr hp hsort
    obtain ⟨ss, hss, hr⟩ := bind_inv hr
    obtain ⟨cs, hcs, hr⟩ := bind_inv hr
    injection hr with hr
    subst hr
    rw [Gpm.mapM_iff] at hss hcs
    have hmne : moves.length ≠ 0 := by
      rw [hp.length_eq]
      simpa using hne
    have hl : ∀ (t : ℤ) (s : Seen), lookup seen t = .ok s ↔ t ∈ db.times petal ∧ Measured dmt read off dmax (loc * 1000 + q.2) t s :=
      lookup_iff (P := fun t s => Measured dmt read off dmax (loc * 1000 + q.2) t s) (fun t s s' => measured_unique) h (fun t s => measured_t)
    constructor
    · refine ⟨moves, (moves.zip (cs.zip ss)).map fun r => (⟨loc, r.1, r.2.1, r.2.2⟩ : Out δ γ), hp, hsort, ?_, ?_⟩
      · clear * - hss hcs hl
        induction hss generalizing cs with
        | nil => cases hcs; exact List.Forall₂.nil
        | cons hs _ ih =>
          cases hcs with
          | cons hc hcs =>
            refine List.Forall₂.cons ⟨rfl, rfl, ((hl _ _).1 hs).2, (calibOf_iff _ _ _ _).1 hc⟩ (ih _ hcs)
      · rw [if_neg hmne]
        rfl
    · intro r hr
      injection hr with hr
      subst hr
      refine ⟨?_, ?_, ?_⟩
      · dsimp only
        rw [List.length_map, ← hss.length_eq, hp.length_eq]
        exact hlen
      · dsimp only
        intro h0
        rw [List.map_eq_nil_iff] at h0
        rw [h0] at hss
        cases hss
        exact hmne rfl
      · intro f hf
        obtain ⟨s, hs, rfl⟩ := List.mem_map.1 hf
        obtain ⟨m, -, h1⟩ := forall₂_mem' hss hs
        obtain ⟨ht, i, _, _, _, _, hi, -, -, -, -, rfl⟩ := (hl _ _).1 h1
        have hne : dmt ≠ [] := by
          obtain ⟨_, _, e, -⟩ := hi
          rw [e]
          simp
        obtain ⟨i', k1, -, k2⟩ := image_index hne off dmax m.t
        rw [← k2 i hi] at k1
        exact ⟨m.t, ht, i, k1, rfl⟩

theorem onePositioner_success (ho : Sorts order)
    (h : ∀ s, s ∈ seen ↔ s.t ∈ db.times petal ∧ Measured dmt read off dmax (loc * 1000 + q.2) s.t s) :
    (∃ o, onePositioner order db nocalib petal loc q.1 seen = .ok o) ↔
      (nocalib = true ∨ ∀ m ∈ db.moves petal q.1, HasMeas dmt read off dmax (db.times petal) (loc * 1000 + q.2) m →
        ∃ c, InForce (db.calibs petal q.1) m.t c) := by
  constructor
  · rintro ⟨o, hr⟩
    cases nocalib with
    | true => exact Or.inl rfl
    | false =>
      right
      intro m hm hj
      obtain ⟨⟨moves, rows, hp, -, hrows, -⟩, -⟩ := onePositioner_ok (q := q) ho h hr
      have hmem : m ∈ moves := hp.mem_iff.2 (List.mem_filter.2 ⟨hm, @decide_eq_true _ (Classical.propDecidable _) hj⟩)
      obtain ⟨r, -, -, -, -, hc⟩ := forall₂_mem hrows hmem
      rcases hc with ⟨h, -⟩ | ⟨-, c, -, hc⟩
      · cases h
      · exact ⟨c, hc⟩
  · intro hc
    unfold onePositioner
    dsimp only
    rw [filter_eq h]
    generalize hF : ((db.moves petal q.1).filter fun m =>
      @decide (HasMeas dmt read off dmax (db.times petal) (loc * 1000 + q.2) m) (Classical.propDecidable _)) = F
    split
    · exact ⟨_, rfl⟩
    · obtain ⟨hp, -⟩ := ho F
      generalize order F = moves at hp
      have hm : ∀ m ∈ moves, m ∈ db.moves petal q.1 ∧ HasMeas dmt read off dmax (db.times petal) (loc * 1000 + q.2) m := by
        intro m hm
        have := hp.mem_iff.1 hm
        rw [← hF] at this
        have := List.mem_filter.1 this
        exact ⟨this.1, @of_decide_eq_true _ (Classical.propDecidable _) this.2⟩
      have hl := lookup_iff (P := fun t s => Measured dmt read off dmax (loc * 1000 + q.2) t s) (fun t s s' => measured_unique) h
        (fun t s => measured_t)
      have h1 : ∃ ss, (moves.mapM fun m => lookup seen m.t) = .ok ss := by
        apply mapM_ok_of
        intro m hmm
        obtain ⟨-, h1, s, h2⟩ := hm m hmm
        exact ⟨s, (hl m.t s).2 ⟨h1, h2⟩⟩
      have h2 : ∃ cs, (moves.mapM fun m => calibOf nocalib (db.calibs petal q.1) m.t) = .ok cs := by
        apply mapM_ok_of
        intro m hmm
        obtain ⟨h1, h2⟩ := hm m hmm
        cases nocalib with
        | true => exact ⟨none, rfl⟩
        | false =>
          obtain ⟨c, h3⟩ := (hc.resolve_left (by simp)) m h1 h2
          exact ⟨some c, (calibOf_iff _ _ _ _).2 (Or.inr ⟨rfl, c, rfl, h3⟩)⟩
      obtain ⟨ss, h1⟩ := h1
      obtain ⟨cs, h2⟩ := h2
      rw [h1]
      change ∃ o, ((moves.mapM fun m => calibOf nocalib (db.calibs petal q.1) m.t) >>= _) = Except.ok o
      rw [h2]
      exact ⟨_, rfl⟩

end

/-! ### Loops -/

/-- The measurements of a positioner. -/
def seenOf [DecidableEq ι] (seen : List (ι × Seen)) (p : ι) : List Seen := (seen.filter fun q => decide (q.1 = p)).map Prod.snd

theorem posLoop_iff [DecidableEq ι] (order : List (Move δ) → List (Move δ)) (db : Db ι δ γ) (nocalib : Bool) (petal : ℕ) (loc : ℤ)
    (seen : List (ι × Seen)) (ps : List ι) : ∀ (tf : List ℤ) (w : List ℤ × List (ι × List (Out δ γ))),
    posLoop order db nocalib petal loc seen tf ps = .ok w ↔ ∃ os,
      List.Forall₂ (fun p o => onePositioner order db nocalib petal loc p (seenOf seen p) = .ok o) ps os ∧
      w.1 = ((os.filterMap id).map Prod.fst).getLast?.getD tf ∧
      w.2 = (ps.zip os).filterMap fun x => x.2.map fun r => (x.1, r.2) := by
  induction ps with
  | nil =>
    intro tf w
    constructor
    · intro h
      injection h with h
      subst h
      exact ⟨[], List.Forall₂.nil, rfl, rfl⟩
    · rintro ⟨os, h, h1, h2⟩
      cases h
      show Except.ok (tf, []) = _
      congr 1
      exact (Prod.ext h1 h2).symm
  | cons p t ih =>
    intro tf w
    unfold posLoop
    constructor
    · intro h
      obtain ⟨o, ho, h⟩ := bind_inv h
      split at h
      · obtain ⟨os, h1, h2, h3⟩ := (ih tf w).1 h
        exact ⟨none :: os, List.Forall₂.cons ho h1, by rw [h2]; rfl, by rw [h3]; rfl⟩
      · rename_i tf' rows
        obtain ⟨w', hw', h⟩ := bind_inv h
        injection h with h
        subst h
        obtain ⟨os, h1, h2, h3⟩ := (ih tf' w').1 hw'
        refine ⟨some (tf', rows) :: os, List.Forall₂.cons ho h1, ?_, by rw [h3]; rfl⟩
        dsimp only
        rw [h2, List.filterMap_cons_some (by rfl), List.map_cons, List.getLast?_cons]
        rfl
    · rintro ⟨os, h, h1, h2⟩
      cases h with
      | @cons _ o _ os ho h =>
        change (onePositioner order db nocalib petal loc p (seenOf seen p) >>= _) = _
        rw [ho]
        cases o with
        | none => exact (ih tf w).2 ⟨os, h, by rw [h1]; rfl, by rw [h2]; rfl⟩
        | some r =>
          obtain ⟨tf', rows⟩ := r
          have := (ih tf' (((os.filterMap id).map Prod.fst).getLast?.getD tf', (t.zip os).filterMap fun x => x.2.map fun r => (x.1, r.2))).2
            ⟨os, h, rfl, rfl⟩
          show (posLoop order db nocalib petal loc seen tf' t >>= _) = _
          rw [this]
          show Except.ok _ = _
          congr 1
          refine (Prod.ext ?_ ?_).symm
          · rw [h1, List.filterMap_cons_some (by rfl), List.map_cons, List.getLast?_cons]
            rfl
          · rw [h2]; rfl

/-- Each positioner of the petal is listed once, with one location. -/
def Distinct (db : Db ι δ γ) (a : ℕ) : Prop := ((db.posids a).map Prod.fst).Nodup

/-- The petal, with the variable `tstamp_fvc` at its initial value. -/
theorem onePetal_ok [DecidableEq ι] {order : List (Move δ) → List (Move δ)} (ho : Sorts order) {db : Db ι δ γ} {dmt : List (Img κ)}
    {read : κ → Option (List Spot)} {off dmax : ℚ} {nocalib : Bool} {a : ℕ} (hd : Distinct db a) {w : List ℤ × List (ι × List (Out δ γ))}
    (h : onePetal order db dmt read off dmax nocalib (dmt.map Img.t) a = .ok w) :
    ∃ loc, petalLoc a = .ok loc ∧ (db.times a = [] ∨ dmt ≠ []) ∧ (∃ os, List.Forall₂ (Turn db dmt read off dmax nocalib a loc) (db.posids a) os ∧
      w.2 = os.filterMap id) ∧
      (w.1.length ≤ (db.times a).length ∨ ∃ p, w.1.length ≤ (db.moves a p).length) ∧ (w.1 = [] → db.times a = []) ∧
      ∀ f ∈ w.1, ∃ t ∈ db.times a, At dmt off t f := by
  unfold onePetal at h
  obtain ⟨loc, hloc, h⟩ := bind_inv h
  dsimp only at h
  obtain ⟨ms, hms, h⟩ := bind_inv h
  obtain ⟨seen, hseen, h⟩ := bind_inv h
  have hne : db.times a = [] ∨ dmt ≠ [] := by
    by_contra hc
    push Not at hc
    obtain ⟨h1, rfl⟩ := hc
    obtain ⟨t, ts, e⟩ := List.exists_cons_of_ne_nil h1
    rw [e] at hms
    cases hms
  obtain ⟨ms', seen', h1, h2, h3, h4, h5⟩ := seen_iff (read := read) (off := off) (dmax := dmax)
    ((db.posids a).map fun q => (q.1, loc * 1000 + q.2)) hne
  rw [hms] at h1
  injection h1 with h1
  subst h1
  rw [hseen] at h2
  injection h2 with h2
  subst h2
  obtain ⟨os, hos, e1, e2⟩ := (posLoop_iff _ _ _ _ _ _ _ _ _).1 h
  have hmap : (((db.posids a).map fun q => (q.1, loc * 1000 + q.2)).map Prod.fst) = (db.posids a).map Prod.fst := by
    rw [List.map_map]; rfl
  rw [hmap] at hos e2
  rw [List.forall₂_map_left_iff] at hos
  have hmem : ∀ q ∈ db.posids a, ∀ s, s ∈ seenOf seen.flatten q.1 ↔ s.t ∈ db.times a ∧ Measured dmt read off dmax (loc * 1000 + q.2) s.t s := by
    intro q hq s
    unfold seenOf
    rw [List.mem_map]
    constructor
    · rintro ⟨⟨p, s'⟩, hx, rfl⟩
      have hx := List.mem_filter.1 hx
      have hp : p = q.1 := by simpa using hx.2
      subst hp
      obtain ⟨l, hl, k1, k2⟩ := (h3 q.1 s').1 hx.1
      obtain ⟨q', hq', e⟩ := List.mem_map.1 hl
      injection e with e1 e2
      have : q' = q := List.inj_on_of_nodup_map hd hq' hq e1
      subst this
      rw [e2]
      exact ⟨k1, k2⟩
    · rintro ⟨k1, k2⟩
      exact ⟨(q.1, s), List.mem_filter.2 ⟨(h3 q.1 s).2 ⟨_, List.mem_map.2 ⟨q, hq, rfl⟩, k1, k2⟩, by simp⟩, rfl⟩
  have hone : ∀ q ∈ db.posids a, ∀ o, onePositioner order db nocalib a loc q.1 (seenOf seen.flatten q.1) = .ok o →
      Turn db dmt read off dmax nocalib a loc q (o.map fun r => (q.1, r.2)) ∧
      ∀ r, o = some r → r.1.length ≤ (db.moves a q.1).length ∧ r.1 ≠ [] ∧ (∀ f ∈ r.1, ∃ t ∈ db.times a, At dmt off t f) :=
    fun q hq o ho' => onePositioner_ok ho (hmem q hq) ho'
  refine ⟨loc, hloc, hne, ⟨((db.posids a).zip os).map fun x => x.2.map fun r => (x.1.1, r.2), ?_, ?_⟩, ?_⟩
  · have : ∀ l os, (∀ q ∈ l, q ∈ db.posids a) → List.Forall₂ (fun (q : ι × ℤ) o =>
        onePositioner order db nocalib a loc q.1 (seenOf seen.flatten q.1) = .ok o) l os →
        List.Forall₂ (Turn db dmt read off dmax nocalib a loc) l ((l.zip os).map fun x => x.2.map fun r => (x.1.1, r.2)) := by
      intro l os hl hf
      induction hf with
      | nil => exact List.Forall₂.nil
      | cons h _ ih =>
        exact List.Forall₂.cons (hone _ (hl _ (by simp)) _ h).1 (ih fun q hq => hl q (List.mem_cons_of_mem _ hq))
    exact this _ _ (fun q hq => hq) hos
  · rw [e2, List.filterMap_map]
    rw [List.zip_map_left, List.filterMap_map]
    rfl
  · rw [e1]
    cases hl : ((os.filterMap id).map Prod.fst).getLast? with
    | none =>
      refine ⟨?_, ?_, ?_⟩
      · left
        show (ms.map Match.tf).length ≤ _
        rw [List.length_map, h4]
      · intro h0
        change ms.map Match.tf = [] at h0
        rw [List.map_eq_nil_iff] at h0
        rw [h0] at h4
        exact List.eq_nil_of_length_eq_zero h4.symm
      · intro f hf
        change f ∈ ms.map Match.tf at hf
        obtain ⟨m, hm, rfl⟩ := List.mem_map.1 hf
        exact h5 m hm
    | some x =>
      obtain ⟨r, hr, rfl⟩ := List.mem_map.1 (List.mem_of_getLast? hl)
      obtain ⟨o, ho', e⟩ := List.mem_filterMap.1 hr
      obtain ⟨q, hq, hk⟩ := forall₂_mem' hos ho'
      obtain ⟨k1, k2, k3⟩ := (hone q hq o hk).2 r e
      exact ⟨Or.inr ⟨q.1, k1⟩, fun h0 => absurd h0 k2, k3⟩

/-- **C82** For one petal (or the first of several): the positioners come in order, each without a file if none of its moves has a
measurement, and otherwise with one row for each of these moves in the order of time. The row has the first position of the location
in the file of the image for this time, that is the next one within the longest delay, its times, and the last calibration before. -/
theorem C82_rows [DecidableEq ι] {order : List (Move δ) → List (Move δ)} (ho : Sorts order) {db : Db ι δ γ} {dmt : List (Img κ)}
    {read : κ → Option (List Spot)} {off dmax : ℚ} {nocalib : Bool} {a : ℕ} (hd : Distinct db a) {rest : List ℕ} {w : List (ι × List (Out δ γ))}
    (h : run order db dmt read off dmax nocalib (a :: rest) = .ok w) :
    ∃ loc os w', petalLoc a = .ok loc ∧ List.Forall₂ (Turn db dmt read off dmax nocalib a loc) (db.posids a) os ∧ w = os.filterMap id ++ w' ∧
      (rest = [] → w' = []) := by
  unfold run petalLoop at h
  obtain ⟨r, hr, h⟩ := bind_inv h
  obtain ⟨w', hw', h⟩ := bind_inv h
  injection h with h
  obtain ⟨loc, hloc, -, ⟨os, hos, e⟩, -⟩ := onePetal_ok ho hd hr
  refine ⟨loc, os, w', hloc, hos, by rw [← h, e], ?_⟩
  rintro rfl
  injection hw' with hw'
  exact hw'.symm

/-- **C82** The script works for a petal exactly if the petal is known, there are images (or no moves), and, with calibrations asked for, each
measured move has one before it. -/
theorem C82_success [DecidableEq ι] {order : List (Move δ) → List (Move δ)} (ho : Sorts order) (db : Db ι δ γ) (dmt : List (Img κ))
    (read : κ → Option (List Spot)) (off dmax : ℚ) (nocalib : Bool) (a : ℕ) (hd : Distinct db a) :
    (∃ w, run order db dmt read off dmax nocalib [a] = .ok w) ↔
      ∃ loc, petalLoc a = .ok loc ∧ (db.times a = [] ∨ dmt ≠ []) ∧
        (nocalib = true ∨ ∀ q ∈ db.posids a, ∀ m ∈ db.moves a q.1, HasMeas dmt read off dmax (db.times a) (loc * 1000 + q.2) m →
          ∃ c, InForce (db.calibs a q.1) m.t c) := by
  constructor
  · rintro ⟨w, h⟩
    unfold run petalLoop at h
    obtain ⟨r, hr, h⟩ := bind_inv h
    obtain ⟨loc, hloc, hne, ⟨os, hos, -⟩, -⟩ := onePetal_ok ho hd hr
    refine ⟨loc, hloc, hne, ?_⟩
    cases nocalib with
    | true => exact Or.inl rfl
    | false =>
      right
      intro q hq m hm hj
      obtain ⟨o, -, moves, rows, hp, -, hrows, -⟩ := forall₂_mem hos hq
      have hmem : m ∈ moves := hp.mem_iff.2 (List.mem_filter.2 ⟨hm, @decide_eq_true _ (Classical.propDecidable _) hj⟩)
      obtain ⟨r, -, -, -, -, hc⟩ := forall₂_mem hrows hmem
      rcases hc with ⟨h, -⟩ | ⟨-, c, -, hc⟩
      · cases h
      · exact ⟨c, hc⟩
  · rintro ⟨loc, hloc, hne, hc⟩
    obtain ⟨ms, seen, h1, h2, h3, -, -⟩ := seen_iff (read := read) (off := off) (dmax := dmax)
      ((db.posids a).map fun q => (q.1, loc * 1000 + q.2)) hne
    have hmem : ∀ q ∈ db.posids a, ∀ s, s ∈ seenOf seen.flatten q.1 ↔
        s.t ∈ db.times a ∧ Measured dmt read off dmax (loc * 1000 + q.2) s.t s := by
      intro q hq s
      unfold seenOf
      rw [List.mem_map]
      constructor
      · rintro ⟨⟨p, s'⟩, hx, rfl⟩
        have hx := List.mem_filter.1 hx
        have hp : p = q.1 := by simpa using hx.2
        subst hp
        obtain ⟨l, hl, k1, k2⟩ := (h3 q.1 s').1 hx.1
        obtain ⟨q', hq', e⟩ := List.mem_map.1 hl
        injection e with e1 e2
        have : q' = q := List.inj_on_of_nodup_map hd hq' hq e1
        subst this
        rw [e2]
        exact ⟨k1, k2⟩
      · rintro ⟨k1, k2⟩
        exact ⟨(q.1, s), List.mem_filter.2 ⟨(h3 q.1 s).2 ⟨_, List.mem_map.2 ⟨q, hq, rfl⟩, k1, k2⟩, by simp⟩, rfl⟩
    have hos : ∃ os, ((db.posids a).map Prod.fst).mapM
        (fun p => onePositioner order db nocalib a loc p (seenOf seen.flatten p)) = .ok os := by
      apply mapM_ok_of
      intro p hp
      obtain ⟨q, hq, rfl⟩ := List.mem_map.1 hp
      refine (onePositioner_success ho (hmem q hq)).2 ?_
      rcases hc with hc | hc
      · exact Or.inl hc
      · exact Or.inr fun m hm hj => hc q hq m hm hj
    obtain ⟨os, hos⟩ := hos
    rw [Gpm.mapM_iff] at hos
    have hmap : (((db.posids a).map fun q => (q.1, loc * 1000 + q.2)).map Prod.fst) = (db.posids a).map Prod.fst := by
      rw [List.map_map]; rfl
    rw [← hmap] at hos
    have hp : ∃ r, onePetal order db dmt read off dmax nocalib (dmt.map Img.t) a = .ok r := by
      unfold onePetal
      rw [hloc]
      show ∃ r, (matchTimes (dmt.map Img.t) off dmt.length (db.times a) >>= _) = Except.ok r
      rw [h1]
      show ∃ r, ((select off dmax ms).mapM (collect dmt read off ((db.posids a).map fun q => (q.1, loc * 1000 + q.2))) >>= _) = Except.ok r
      rw [h2]
      exact ⟨(_, _), (posLoop_iff _ _ _ _ _ _ _ _ (_, _)).2 ⟨os, hos, rfl, rfl⟩⟩
    obtain ⟨r, hr⟩ := hp
    unfold run petalLoop
    rw [hr]
    exact ⟨_, rfl⟩

/-! ### Several petals -/

theorem lookup_mem {seen : List Seen} {t : ℤ} {s : Seen} (h : lookup seen t = .ok s) : s ∈ seen ∧ s.t = t := by
  unfold lookup byTime at h
  have := fold_get Seen.t id seen t []
  rw [List.map_id] at this
  rw [show (fun (d : Dict ℤ Seen) (s : Seen) => d.set s.t s) = fun (d : Dict ℤ Seen) (r : Seen) => d.set r.t (id r) from rfl, this] at h
  cases hl : (seen.filter fun r => decide (r.t = t)).getLast? with
  | none =>
    rw [hl] at h
    cases h
  | some x =>
    rw [hl] at h
    have h : x = s := by injection h
    subst h
    have := List.mem_filter.1 (List.mem_of_getLast? hl)
    exact ⟨this.1, by simpa using this.2⟩

theorem index_first {f : ℤ} {tf : List ℤ} {off : ℚ} {n : ℕ} {t : ℤ} (h : (t : ℚ) < f + off) : index (f :: tf) off n t = 0 := by
  unfold index
  rw [List.findIdx?_cons, if_pos (by simpa using h)]

/-- The rows of a petal whose moves are all before the first entry of `tstamp_fvc` come from the first image of the table. -/
theorem rows_from_first [DecidableEq ι] {order : List (Move δ) → List (Move δ)} {db : Db ι δ γ} {i : Img κ} {dmt : List (Img κ)}
    {read : κ → Option (List Spot)} {off dmax : ℚ} {nocalib : Bool} {a : ℕ} {f : ℤ} {tf : List ℤ} (ht : ∀ t ∈ db.times a, (t : ℚ) < f + off)
    {w : List ℤ × List (ι × List (Out δ γ))} (h : onePetal order db (i :: dmt) read off dmax nocalib (f :: tf) a = .ok w) :
    ∀ e ∈ w.2, ∀ r ∈ e.2, r.seen.tf = f ∧ ∃ tab, read i.file = some tab ∧ ∃ s ∈ tab, r.seen.x = s.x ∧ r.seen.y = s.y := by
  unfold onePetal at h
  obtain ⟨loc, hloc, h⟩ := bind_inv h
  dsimp only at h
  obtain ⟨ms, hms, h⟩ := bind_inv h
  obtain ⟨seen, hseen, h⟩ := bind_inv h
  obtain ⟨os, hos, -, e2⟩ := (posLoop_iff _ _ _ _ _ _ _ _ _).1 h
  unfold matchTimes at hms
  rw [Gpm.mapM_iff] at hms hseen
  intro e he r hr
  rw [e2] at he
  obtain ⟨⟨p, o⟩, hpo, hmap⟩ := List.mem_filterMap.1 he
  obtain ⟨x, hx, rfl⟩ := Option.map_eq_some_iff.1 hmap
  have hx : o = some x := hx
  subst hx
  have hrun : onePositioner order db nocalib a loc p (seenOf seen.flatten p) = .ok (some x) := by
    clear * - hos hpo
    generalize List.map Prod.fst (List.map (fun (q : ι × ℤ) => (q.1, loc * 1000 + q.2)) (db.posids a)) = ps at hos hpo
    induction hos with
    | nil => simp at hpo
    | cons h _ ih =>
      rw [List.zip_cons_cons] at hpo
      rcases List.mem_cons.1 hpo with hpo | hpo
      · injection hpo with h1 h2
        subst h1 h2
        exact h
      · exact ih hpo
  unfold onePositioner at hrun
  dsimp only at hrun
  split at hrun
  · cases hrun
  obtain ⟨ss, hss, hrun⟩ := bind_inv hrun
  obtain ⟨cs, hcs, hrun⟩ := bind_inv hrun
  injection hrun with hrun
  injection hrun with hrun
  subst hrun
  dsimp only at hr
  obtain ⟨y, hy, rfl⟩ := List.mem_map.1 (List.mem_of_mem_filter hr)
  have hy2 : y.2.2 ∈ ss := (List.of_mem_zip (List.of_mem_zip hy).2).2
  rw [Gpm.mapM_iff] at hss
  obtain ⟨m, -, hl⟩ := forall₂_mem' hss hy2
  obtain ⟨hl, -⟩ := lookup_mem hl
  unfold seenOf at hl
  obtain ⟨⟨p', s⟩, hps, hse⟩ := List.mem_map.1 hl
  have hse : s = y.2.2 := hse
  dsimp only
  rw [← hse]
  obtain ⟨l, hl, hm⟩ := List.mem_flatten.1 (List.mem_of_mem_filter hps)
  obtain ⟨mt, hmt, hcol⟩ := forall₂_mem' hseen hl
  obtain ⟨t, htt, hone⟩ := forall₂_mem' hms (List.mem_of_mem_filter hmt)
  rw [index_first (ht t htt)] at hone
  injection hone with hone
  subst hone
  unfold collect at hcol
  change (match read i.file with | none => _ | some tab => _) = Except.ok l at hcol
  split at hcol
  · injection hcol with hcol
    subst hcol
    cases hm
  · rename_i tab htab
    injection hcol with hcol
    subst hcol
    obtain ⟨q, -, hq⟩ := List.mem_filterMap.1 hm
    obtain ⟨s', h1, h2⟩ := Option.map_eq_some_iff.1 hq
    injection h2 with h2 h3
    subst h3
    unfold seenIn at h1
    obtain ⟨sp, h3, h4⟩ := Option.map_eq_some_iff.1 h1
    subst h4
    exact ⟨rfl, tab, htab, sp, List.mem_of_find?_eq_some h3, rfl, rfl⟩

/-- **C82** (finding) The variable `tstamp_fvc` is overwritten for the first petal, so that the second one is matched with wrong images. When
all moves of two petals are between the first and the second image, the image for them is the second, and it is used for the first
petal, but all positions of the second petal are taken from the first image, made before the moves. -/
theorem C82_second_petal [DecidableEq ι] {order : List (Move δ) → List (Move δ)} (ho : Sorts order) {db : Db ι δ γ} {i₀ i₁ : Img κ}
    {dmt : List (Img κ)} {read : κ → Option (List Spot)} {off dmax : ℚ} {nocalib : Bool} {a b : ℕ} (hd : Distinct db a) (hne : db.times a ≠ [])
    (ha : ∀ t ∈ db.times a, (i₀.t : ℚ) + off ≤ t ∧ (t : ℚ) < i₁.t + off) (hb : ∀ t ∈ db.times b, (i₀.t : ℚ) + off ≤ t ∧ (t : ℚ) < i₁.t + off)
    {w : List (ι × List (Out δ γ))} (h : run order db (i₀ :: i₁ :: dmt) read off dmax nocalib [a, b] = .ok w) :
    ∃ w₁ w₂, w = w₁ ++ w₂ ∧ run order db (i₀ :: i₁ :: dmt) read off dmax nocalib [a] = .ok w₁ ∧
      ∀ e ∈ w₂, ∀ r ∈ e.2, r.seen.tf = i₁.t ∧ ∃ tab, read i₀.file = some tab ∧ ∃ s ∈ tab, r.seen.x = s.x ∧ r.seen.y = s.y := by
  unfold run petalLoop at h
  obtain ⟨r, hr, h⟩ := bind_inv h
  obtain ⟨w', hw', h⟩ := bind_inv h
  injection h with h
  unfold petalLoop at hw'
  obtain ⟨r', hr', hw'⟩ := bind_inv hw'
  obtain ⟨w'', hw'', hw'⟩ := bind_inv hw'
  injection hw'' with hw''
  injection hw' with hw'
  obtain ⟨-, -, -, -, -, h1, h2⟩ := onePetal_ok ho hd hr
  refine ⟨r.2, w', h.symm, ?_, ?_⟩
  · unfold run petalLoop
    rw [hr]
    show Except.ok (r.2 ++ []) = _
    rw [List.append_nil]
  · obtain ⟨f, tf, e⟩ : ∃ f tf, r.1 = f :: tf := List.exists_cons_of_ne_nil fun h0 => hne (h1 h0)
    obtain ⟨t, ht, i, hi, hf⟩ := h2 f (by rw [e]; simp)
    have hidx : index ((i₀ :: i₁ :: dmt).map Img.t) off (i₀ :: i₁ :: dmt).length t = 1 := by
      obtain ⟨k1, k2⟩ := ha t ht
      unfold index
      rw [List.map_cons, List.findIdx?_cons, if_neg (by simpa using k1), List.map_cons, List.findIdx?_cons, if_pos (by simpa using k2)]
      rfl
    rw [hidx] at hi
    have hi : i₁ = i := by simpa using hi
    subst hi
    rw [e, hf] at hr'
    have := rows_from_first (fun t ht => (hb t ht).2) hr'
    rw [← hw', ← hw'', List.append_nil]
    exact this

theorem mapM_error {α β : Type} {f : α → Except PyErr β} {e : PyErr} (l : List α) (h : ∀ x ∈ l, (∃ b, f x = .ok b) ∨ f x = .error e)
    (hx : ∃ x ∈ l, f x = .error e) : l.mapM f = .error e := by
  induction l with
  | nil => obtain ⟨x, hx, -⟩ := hx; cases hx
  | cons a t ih =>
    rw [List.mapM_cons]
    rcases h a (by simp) with ⟨b, hb⟩ | ha
    · rw [hb]
      obtain ⟨x, hx, he⟩ := hx
      rcases List.mem_cons.1 hx with rfl | hx
      · rw [hb] at he; cases he
      · show (t.mapM f >>= _) = _
        rw [ih (fun y hy => h y (List.mem_cons_of_mem _ hy)) ⟨x, hx, he⟩]
        rfl
    · rw [ha]; rfl

/-- **C82** (finding) With fewer times for the first petal than images in the table, a move of the second petal after the last image, which has
no image and is passed over when the petal is alone, stops the script. -/
theorem C82_stops [DecidableEq ι] {order : List (Move δ) → List (Move δ)} (ho : Sorts order) {db : Db ι δ γ} {dmt : List (Img κ)}
    {read : κ → Option (List Spot)} {off dmax : ℚ} {nocalib : Bool} {a b : ℕ} (hd : Distinct db a) {loc : ℤ} (hloc : petalLoc b = .ok loc)
    {w : List (ι × List (Out δ γ))} (hok : run order db dmt read off dmax nocalib [a] = .ok w)
    (h1 : (db.times a).length < dmt.length) (h2 : ∀ p, (db.moves a p).length < dmt.length)
    {t : ℤ} (ht : t ∈ db.times b) (hlast : ∀ i ∈ dmt, (i.t : ℚ) + off ≤ t) :
    run order db dmt read off dmax nocalib [a, b] = .error .indexError := by
  unfold run petalLoop at hok
  obtain ⟨r, hr, -⟩ := bind_inv hok
  obtain ⟨-, -, -, -, hlen, -, hat⟩ := onePetal_ok ho hd hr
  have hlen : r.1.length < dmt.length := by
    rcases hlen with hl | ⟨p, hl⟩
    · omega
    · have := h2 p; omega
  have hidx : index r.1 off dmt.length t = dmt.length - 1 := by
    unfold index
    have : (r.1.findIdx? fun (f : ℤ) => decide ((t : ℚ) < f + off)) = none := by
      rw [List.findIdx?_eq_none_iff]
      intro f hf
      obtain ⟨t', -, i, hi, rfl⟩ := hat f hf
      have := hlast i (List.mem_of_getElem? hi)
      simpa using this
    rw [this]
  have hget : ∀ k, (∃ x, getIdx r.1 k = .ok x) ∨ getIdx r.1 k = .error .indexError := by
    intro k
    unfold getIdx
    cases r.1[k]? with
    | none => exact Or.inr rfl
    | some x => exact Or.inl ⟨x, rfl⟩
  have hm : matchTimes r.1 off dmt.length (db.times b) = .error .indexError := by
    apply mapM_error
    · intro t' _
      rcases hget (index r.1 off dmt.length t') with ⟨x, hx⟩ | hx
      · rw [hx]; exact Or.inl ⟨_, rfl⟩
      · rw [hx]; exact Or.inr rfl
    · refine ⟨t, ht, ?_⟩
      rw [hidx]
      have : getIdx r.1 (dmt.length - 1) = .error .indexError := by
        unfold getIdx
        rw [List.getElem?_eq_none (by omega)]
      rw [this]
      rfl
  unfold run petalLoop
  rw [hr]
  show (petalLoop order db dmt read off dmax nocalib r.1 [b] >>= _) = _
  unfold petalLoop onePetal
  rw [hloc]
  dsimp only [bind, Except.bind]
  rw [hm]

/-! ### An example -/

/-- Sorting by insertion. -/
def insertion (l : List (Move δ)) : List (Move δ) := l.insertionSort fun m m' => m.t ≤ m'.t

theorem sorts_insertion : Sorts (insertion (δ := δ)) := by
  intro l
  refine ⟨List.perm_insertionSort _ l, ?_⟩
  have : Std.Total fun m m' : Move δ => m.t ≤ m'.t := ⟨fun m m' => le_total m.t m'.t⟩
  have : IsTrans (Move δ) fun m m' => m.t ≤ m'.t := ⟨fun _ _ _ => le_trans⟩
  exact List.pairwise_insertionSort _ l

/-- One positioner on each of the petals 2 and 3, moved at second 95. -/
def exDb : Db ℕ Unit Unit := ⟨fun a => [(a, 5)], fun _ => [95], fun _ _ => [⟨95, ()⟩], fun _ _ => []⟩

/-- Two images, one before the moves and one after. -/
def exDmt : List (Img Bool) := [⟨10, false⟩, ⟨100, true⟩]

/-- Before the moves both positioners are at (1, 1), after them at (2, 2). -/
def exRead (b : Bool) : Option (List Spot) := some (if b then [⟨7005, 2, 2⟩, ⟨3005, 2, 2⟩] else [⟨7005, 1, 1⟩, ⟨3005, 1, 1⟩])

/-- Alone, petal 3 is measured at (2, 2); after petal 2 it is at (1, 1), with the time of the other image. -/
example : Sorts (insertion (δ := Unit)) ∧ Distinct exDb 2 ∧ Distinct exDb 3 ∧
    run insertion exDb exDmt exRead 0 25 true [3] = .ok [(3, [⟨3, ⟨95, ()⟩, none, ⟨95, 100, 5, 2, 2⟩⟩])] ∧
    run insertion exDb exDmt exRead 0 25 true [2, 3] =
      .ok [(2, [⟨7, ⟨95, ()⟩, none, ⟨95, 100, 5, 2, 2⟩⟩]), (3, [⟨3, ⟨95, ()⟩, none, ⟨95, 100, 5, 1, 1⟩⟩])] := by
  have i1 : index [10, 100] 0 2 95 = 1 := by unfold index; norm_num [List.findIdx?_cons]
  have i2 : index [100] 0 2 95 = 0 := by unfold index; norm_num [List.findIdx?_cons]
  have m1 : matchTimes [10, 100] 0 2 [95] = .ok [⟨95, 1, 100⟩] := by
    unfold matchTimes; rw [List.mapM_cons, i1]; rfl
  have m2 : matchTimes [100] 0 2 [95] = .ok [⟨95, 0, 100⟩] := by
    unfold matchTimes; rw [List.mapM_cons, i2]; rfl
  have s1 : ∀ k, select 0 25 [⟨95, k, 100⟩] = [⟨95, k, 100⟩] := by intro k; norm_num [select, Match.deltat]
  have dt : ∀ k, Match.deltat 0 ⟨95, k, 100⟩ = 5 := by intro k; norm_num [Match.deltat]
  have c1 : ∀ (p : ℕ) (l : ℤ), l = 3005 ∨ l = 7005 → collect exDmt exRead 0 [(p, l)] ⟨95, 1, 100⟩ = .ok [(p, ⟨95, 100, 5, 2, 2⟩)] := by
    rintro p l (rfl | rfl) <;> (rw [← dt 1]; rfl)
  have c2 : ∀ (p : ℕ) (l : ℤ), l = 3005 ∨ l = 7005 → collect exDmt exRead 0 [(p, l)] ⟨95, 0, 100⟩ = .ok [(p, ⟨95, 100, 5, 1, 1⟩)] := by
    rintro p l (rfl | rfl) <;> (rw [← dt 0]; rfl)
  have p1 : ∀ (a : ℕ) (l : ℤ) (v : ℝ), v ≠ 0 → ∀ tf, posLoop insertion exDb true a l [(a, ⟨95, 100, 5, v, v⟩)] tf [a] =
      .ok ([100], [(a, [⟨l, ⟨95, ()⟩, none, ⟨95, 100, 5, v, v⟩⟩])]) := by
    intro a l v hv tf
    rw [posLoop_iff]
    refine ⟨[some ([100], [⟨l, ⟨95, ()⟩, none, ⟨95, 100, 5, v, v⟩⟩])], List.Forall₂.cons ?_ List.Forall₂.nil, rfl, rfl⟩
    have : seenOf [(a, (⟨95, 100, 5, v, v⟩ : Seen))] a = [⟨95, 100, 5, v, v⟩] := by simp [seenOf]
    rw [this]
    have : onePositioner insertion exDb true a l a [⟨95, 100, 5, v, v⟩] = .ok (some ([100],
        ([⟨l, ⟨95, ()⟩, none, ⟨95, 100, 5, v, v⟩⟩] : List (Out Unit Unit)).filter fun r => decide (r.seen.x ≠ 0))) := rfl
    rw [this, List.filter_cons_of_pos (by simpa using hv)]
    rfl
  have f1 : ∀ (a : ℕ) (l : ℤ), petalLoc a = .ok l → (l * 1000 + 5 = 3005 ∨ l * 1000 + 5 = 7005) →
      onePetal insertion exDb exDmt exRead 0 25 true [10, 100] a = .ok ([100], [(a, [⟨l, ⟨95, ()⟩, none, ⟨95, 100, 5, 2, 2⟩⟩])]) := by
    intro a l hl hk
    unfold onePetal
    rw [hl]
    show (matchTimes [10, 100] 0 2 [95] >>= _) = _
    rw [m1]
    show ((select 0 25 [⟨95, 1, 100⟩]).mapM (collect exDmt exRead 0 [(a, l * 1000 + 5)]) >>= _) = _
    rw [s1, List.mapM_cons, c1 a _ hk]
    exact p1 a l 2 (by norm_num) [100]
  have f2 : onePetal insertion exDb exDmt exRead 0 25 true [100] 3 = .ok ([100], [(3, [⟨3, ⟨95, ()⟩, none, ⟨95, 100, 5, 1, 1⟩⟩])]) := by
    show (matchTimes [100] 0 2 [95] >>= _) = _
    rw [m2]
    show ((select 0 25 [⟨95, 0, 100⟩]).mapM (collect exDmt exRead 0 [(3, 3 * 1000 + 5)]) >>= _) = _
    rw [s1, List.mapM_cons, c2 3 _ (by norm_num)]
    exact p1 3 3 1 (by norm_num) [100]
  refine ⟨sorts_insertion, by simp [Distinct, exDb], by simp [Distinct, exDb], ?_, ?_⟩
  · show (onePetal insertion exDb exDmt exRead 0 25 true [10, 100] 3 >>= _) = _
    rw [f1 3 3 rfl (by norm_num)]
    rfl
  · show (onePetal insertion exDb exDmt exRead 0 25 true [10, 100] 2 >>= _) = _
    rw [f1 2 7 rfl (by norm_num)]
    show ((onePetal insertion exDb exDmt exRead 0 25 true [100] 3 >>= _) >>= _) = _
    rw [f2]
    rfl

/-- With a third image, petal 2 has fewer times than there are images; a move of petal 3 after the last one stops the script. -/
example : ∃ db : Db ℕ Unit Unit, Distinct db 2 ∧ (∃ w, run insertion db exDmt exRead 0 25 true [2] = .ok w) ∧
    (db.times 2).length < exDmt.length ∧ (∀ p, (db.moves 2 p).length < exDmt.length) ∧ 200 ∈ db.times 3 ∧
    (∀ i ∈ exDmt, (i.t : ℚ) + 0 ≤ (200 : ℤ)) ∧ (∃ w, run insertion db exDmt exRead 0 25 true [3] = .ok w) ∧
    run insertion db exDmt exRead 0 25 true [2, 3] = .error .indexError := by
  let db : Db ℕ Unit Unit := ⟨fun a => [(a, 5)], fun a => if a = 2 then [95] else [200], fun _ _ => [⟨95, ()⟩], fun _ _ => []⟩
  have hd : Distinct db 2 := by simp [Distinct, db]
  have hw : ∃ w, run insertion db exDmt exRead 0 25 true [2] = .ok w :=
    (C82_success sorts_insertion db exDmt exRead 0 25 true 2 hd).2 ⟨7, rfl, Or.inr (by simp [exDmt]), Or.inl rfl⟩
  have hlast : ∀ i ∈ exDmt, (i.t : ℚ) + 0 ≤ (200 : ℤ) := by
    intro i hi
    simp only [exDmt, List.mem_cons, List.not_mem_nil, or_false] at hi
    rcases hi with rfl | rfl <;> norm_num
  obtain ⟨w, hw'⟩ := hw
  have h1 : (db.times 2).length < exDmt.length := by simp [db, exDmt]
  have h2 : ∀ p, (db.moves 2 p).length < exDmt.length := by intro p; simp [db, exDmt]
  have ht : 200 ∈ db.times 3 := by simp [db]
  refine ⟨db, hd, ⟨w, hw'⟩, h1, h2, ht, hlast, ?_, C82_stops sorts_insertion hd rfl hw' h1 h2 ht hlast⟩
  exact (C82_success sorts_insertion db exDmt exRead 0 25 true 3 (by simp [Distinct, db])).2
    ⟨3, rfl, Or.inr (by simp [exDmt]), Or.inl rfl⟩

end Verif.Props.MovesDates
