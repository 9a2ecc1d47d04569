import Verif.Model.PerfStats
import Verif.Props.FpMetrology

/-!
# C86: statistics of the errors of positioners
-/

namespace Verif.Props
open Verif.Py Verif.Model
open Verif.Model.PerfStats

namespace Pfs

/-! ### Specification -/

/-- `c` is the mean of the two values around position `q (n - 1)` of the sorted values. -/
def MidPoint (q : ℝ) (S : List ℝ) (c : ℝ) : Prop :=
  ∃ s : List ℝ, s.Perm S ∧ s.Pairwise (· ≤ ·) ∧
    ∃ u v, s[⌊q * ((S.length : ℝ) - 1)⌋₊]? = some u ∧ s[⌈q * ((S.length : ℝ) - 1)⌉₊]? = some v ∧ c = (u + v) / 2

/-- The fraction that belongs to a level. -/
def Fraction (s : WithTop ℕ) (q : ℝ) : Prop := (s = ⊤ ∧ q = 1) ∨ ∃ k : ℕ, s = WithTop.some k ∧ q = 1 - Real.exp (-(k : ℝ))

/-- A row counts for a tag. -/
def Takes (tag : Tag) (r : Row) : Prop := tag = .accepted → r.accepted = true

instance (tag : Tag) (r : Row) : Decidable (Takes tag r) := by unfold Takes; infer_instance

/-- The rows of a submove that count for a tag. -/
def chosen (tag : Tag) (submove : ℕ) (rows : List Row) : List Row := rows.filter fun r => r.submove = submove ∧ Takes tag r

/-- Every submove of the table has a row that counts. -/
def Covered (tag : Tag) (rows : List Row) : Prop := ∀ r ∈ rows, ∃ r' ∈ rows, r'.submove = r.submove ∧ Takes tag r'

/-- The row lies within a level. -/
def Within (tag : Tag) (rows : List Row) (r : Row) (s : WithTop ℕ) : Prop :=
  ∃ q c, Fraction s q ∧ MidPoint q ((chosen tag r.submove rows).map (err tag)) c ∧ err tag r ≤ c

/-! ### Quantiles -/

theorem sel_iff {tag sm r} : sel tag sm r = true ↔ r.submove = sm ∧ Takes tag r := by
  unfold sel Takes
  rw [Bool.and_eq_true, beq_iff_eq, Bool.or_eq_true, bne_iff_ne]
  constructor
  · rintro ⟨h1, h2 | h2⟩
    · exact ⟨h1, fun h => absurd h h2⟩
    · exact ⟨h1, fun _ => h2⟩
  · rintro ⟨h1, h2⟩
    by_cases h : tag = .accepted
    · exact ⟨h1, Or.inr (h2 h)⟩
    · exact ⟨h1, Or.inl h⟩

theorem filter_sel (tag : Tag) (sm : ℕ) (rows : List Row) : rows.filter (sel tag sm) = chosen tag sm rows := by
  unfold chosen
  apply List.filter_congr
  intro r _
  rw [Bool.eq_iff_iff, sel_iff, decide_eq_true_iff]

theorem quantileOf_frac (s : WithTop ℕ) (q : ℝ) : Fraction s q ↔ q = quantileOf s := by
  unfold Fraction
  induction s using WithTop.recTopCoe with
  | top => simp [quantileOf]
  | coe k =>
    have e : quantileOf (WithTop.some k) = 1 - Real.exp (-(k : ℝ)) := rfl
    rw [e]
    constructor
    · rintro (⟨h, -⟩ | ⟨k', h, rfl⟩)
      · exact absurd h (WithTop.coe_ne_top)
      · rw [WithTop.coe_inj.1 h]
    · rintro rfl
      exact Or.inr ⟨k, rfl, rfl⟩

theorem quantileOf_mono : StrictMono quantileOf := by
  intro a b h
  induction a using WithTop.recTopCoe with
  | top => exact absurd h (not_top_lt)
  | coe a =>
    have e : quantileOf (WithTop.some a) = 1 - Real.exp (-(a : ℝ)) := rfl
    induction b using WithTop.recTopCoe with
    | top =>
      rw [e]
      have : quantileOf ⊤ = 1 := rfl
      rw [this]
      have := Real.exp_pos (-(a : ℝ))
      linarith
    | coe b =>
      have e' : quantileOf (WithTop.some b) = 1 - Real.exp (-(b : ℝ)) := rfl
      rw [e, e']
      have hab : a < b := WithTop.coe_lt_coe.1 h
      have : Real.exp (-(b : ℝ)) < Real.exp (-(a : ℝ)) := by
        apply Real.exp_lt_exp.2
        have : (a : ℝ) < b := by exact_mod_cast hab
        linarith
      linarith

theorem quantileOf_bounds (s : WithTop ℕ) : 0 ≤ quantileOf s ∧ quantileOf s ≤ 1 := by
  have h0 : quantileOf ((0 : ℕ) : WithTop ℕ) = 0 := by
    show 1 - Real.exp (-((0 : ℕ) : ℝ)) = 0
    simp
  constructor
  · rw [← h0]
    exact quantileOf_mono.monotone (by exact bot_le)
  · have h1 : quantileOf ⊤ = 1 := rfl
    rw [← h1]
    exact quantileOf_mono.monotone le_top

/-- The two positions. -/
theorem positions {q : ℝ} {n : ℕ} (h1 : q ≤ 1) (hn : 0 < n) :
    ⌊q * ((n : ℝ) - 1)⌋₊ ≤ ⌈q * ((n : ℝ) - 1)⌉₊ ∧ ⌈q * ((n : ℝ) - 1)⌉₊ ≤ ⌊q * ((n : ℝ) - 1)⌋₊ + 1 ∧ ⌈q * ((n : ℝ) - 1)⌉₊ < n := by
  have hn' : (1 : ℝ) ≤ n := by exact_mod_cast hn
  refine ⟨Nat.floor_le_ceil _, Nat.ceil_le_floor_add_one _, ?_⟩
  have : ⌈q * ((n : ℝ) - 1)⌉₊ ≤ n - 1 := by
    apply Nat.ceil_le.2
    rw [Nat.cast_sub hn]
    push_cast
    nlinarith
  omega

theorem midQuantile_spec {q : ℝ} {l : List ℝ} (h0 : 0 ≤ q) (h1 : q ≤ 1) (hl : l ≠ []) (c : ℝ) :
    midQuantile q l = .ok c ↔ MidPoint q l c := by
  have hn : 0 < l.length := List.length_pos_iff.2 hl
  obtain ⟨p1, p2, p3⟩ := positions h1 hn
  have he : l.isEmpty = false := by
    rw [← Bool.not_eq_true, List.isEmpty_iff]; exact hl
  have hs : (l.insertionSort (· ≤ ·)).length = l.length := List.length_insertionSort _ _
  unfold midQuantile
  rw [he]
  simp only [Bool.false_eq_true, if_false]
  have g1 := List.getElem?_eq_getElem (l := l.insertionSort (· ≤ ·)) (i := ⌊q * ((l.length : ℝ) - 1)⌋₊) (by omega)
  have g2 := List.getElem?_eq_getElem (l := l.insertionSort (· ≤ ·)) (i := ⌈q * ((l.length : ℝ) - 1)⌉₊) (by omega)
  rw [List.getD_eq_getElem?_getD, List.getD_eq_getElem?_getD, g1, g2]
  constructor
  · intro h
    injection h with h
    exact ⟨_, List.perm_insertionSort _ _, List.pairwise_insertionSort _ _, _, _, g1, g2, h.symm⟩
  · rintro ⟨s, s1, s2, u, v, s3, s4, rfl⟩
    have e : s = l.insertionSort (· ≤ ·) :=
      List.Perm.eq_of_pairwise (fun a b _ _ h1 h2 => le_antisymm h1 h2) s2 (List.pairwise_insertionSort _ _) (s1.trans (List.perm_insertionSort _ _).symm)
    rw [e, g1] at s3
    rw [e, g2] at s4
    injection s3 with s3
    injection s4 with s4
    rw [← s3, ← s4]
    rfl

theorem midPoint_exists {q : ℝ} {l : List ℝ} (h0 : 0 ≤ q) (h1 : q ≤ 1) (hl : l ≠ []) : ∃ c, MidPoint q l c := by
  have he : l.isEmpty = false := by
    rw [← Bool.not_eq_true, List.isEmpty_iff]; exact hl
  have : ∃ c, midQuantile q l = .ok c := by
    unfold midQuantile
    rw [he]
    exact ⟨_, rfl⟩
  obtain ⟨c, hc⟩ := this
  exact ⟨c, (midQuantile_spec h0 h1 hl c).1 hc⟩

theorem midPoint_unique {q : ℝ} {l : List ℝ} {c c' : ℝ} (h : MidPoint q l c) (h' : MidPoint q l c') : c = c' := by
  obtain ⟨s, s1, s2, u, v, s3, s4, rfl⟩ := h
  obtain ⟨t, t1, t2, u', v', t3, t4, rfl⟩ := h'
  have e : s = t := List.Perm.eq_of_pairwise (fun a b _ _ h1 h2 => le_antisymm h1 h2) s2 t2 (s1.trans t1.symm)
  rw [e, t3] at s3
  rw [e, t4] at s4
  injection s3 with s3
  injection s4 with s4
  rw [s3, s4]

theorem sorted_le {s : List ℝ} (hs : s.Pairwise (· ≤ ·)) {i j : ℕ} {u v : ℝ} (hij : i ≤ j) (hu : s[i]? = some u) (hv : s[j]? = some v) : u ≤ v := by
  obtain ⟨h1, rfl⟩ := List.getElem?_eq_some_iff.1 hu
  obtain ⟨h2, rfl⟩ := List.getElem?_eq_some_iff.1 hv
  rcases hij.lt_or_eq with h | rfl
  · exact List.pairwise_iff_getElem.1 hs i j h1 h2 h
  · exact le_refl _

theorem midPoint_mono {q q' : ℝ} {l : List ℝ} {c c' : ℝ} (hl : l ≠ []) (hq : q ≤ q') (h : MidPoint q l c) (h' : MidPoint q' l c') : c ≤ c' := by
  obtain ⟨s, s1, s2, u, v, s3, s4, rfl⟩ := h
  obtain ⟨t, t1, t2, u', v', t3, t4, rfl⟩ := h'
  have e : s = t := List.Perm.eq_of_pairwise (fun a b _ _ h1 h2 => le_antisymm h1 h2) s2 t2 (s1.trans t1.symm)
  subst e
  have hn : (1 : ℝ) ≤ l.length := by exact_mod_cast List.length_pos_iff.2 hl
  have hx : q * ((l.length : ℝ) - 1) ≤ q' * ((l.length : ℝ) - 1) := mul_le_mul_of_nonneg_right hq (by linarith)
  have a1 := sorted_le s2 (Nat.floor_mono hx) s3 t3
  have a2 := sorted_le s2 (Nat.ceil_mono hx) s4 t4
  linarith

theorem midPoint_top {l : List ℝ} {c : ℝ} (h : MidPoint 1 l c) : ∀ e ∈ l, e ≤ c := by
  obtain ⟨s, s1, s2, u, v, s3, s4, rfl⟩ := h
  intro e he
  have he' : e ∈ s := s1.mem_iff.2 he
  obtain ⟨i, hi, rfl⟩ := List.getElem_of_mem he'
  have hlen := s1.length_eq
  have hn : 1 ≤ l.length := by omega
  have ex : (1 : ℝ) * ((l.length : ℝ) - 1) = ((l.length - 1 : ℕ) : ℝ) := by
    rw [Nat.cast_sub hn]; simp
  rw [ex, Nat.floor_natCast] at s3
  rw [ex, Nat.ceil_natCast] at s4
  have a1 := sorted_le s2 (show i ≤ l.length - 1 by omega) (List.getElem?_eq_getElem hi) s3
  have a2 := sorted_le s2 (show i ≤ l.length - 1 by omega) (List.getElem?_eq_getElem hi) s4
  linarith

/-- How many values are within the cutoff. -/
theorem midPoint_count {q : ℝ} {l : List ℝ} {c : ℝ} (h : MidPoint q l c) :
    ⌊q * ((l.length : ℝ) - 1)⌋₊ + 1 ≤ (l.filter (· ≤ c)).length ∧
    (l.Nodup → (l.filter (· ≤ c)).length = ⌊q * ((l.length : ℝ) - 1)⌋₊ + 1) := by
  obtain ⟨s, s1, s2, u, v, s3, s4, rfl⟩ := h
  have e : (l.filter (· ≤ (u + v) / 2)).length = (s.filter (· ≤ (u + v) / 2)).length := (s1.filter _).length_eq.symm
  rw [e]
  clear e
  have huv : u ≤ v := sorted_le s2 (Nat.floor_le_ceil _) s3 s4
  have p2 := Nat.ceil_le_floor_add_one (q * ((l.length : ℝ) - 1))
  have p1 := Nat.floor_le_ceil (q * ((l.length : ℝ) - 1))
  generalize ⌊q * ((l.length : ℝ) - 1)⌋₊ = i at s3 p1 p2 ⊢
  generalize ⌈q * ((l.length : ℝ) - 1)⌉₊ = j at s4 p1 p2
  obtain ⟨hi, hi'⟩ := List.getElem?_eq_some_iff.1 s3
  have et : (s.take (i + 1)).filter (· ≤ (u + v) / 2) = s.take (i + 1) := by
    rw [List.filter_eq_self]
    intro a ha
    obtain ⟨k, hk, rfl⟩ := List.getElem_of_mem ha
    rw [List.length_take] at hk
    have := sorted_le s2 (show k ≤ i by omega) (List.getElem?_eq_getElem (by omega)) s3
    rw [List.getElem_take, decide_eq_true_iff]
    linarith
  have es : s.filter (· ≤ (u + v) / 2) = s.take (i + 1) ++ (s.drop (i + 1)).filter (· ≤ (u + v) / 2) := by
    conv_lhs => rw [← List.take_append_drop (i + 1) s, List.filter_append, et]
  rw [es, List.length_append, List.length_take]
  constructor
  · omega
  · intro hd
    have hd' : s.Nodup := s1.nodup_iff.2 hd
    have : (s.drop (i + 1)).filter (· ≤ (u + v) / 2) = [] := by
      rw [List.filter_eq_nil_iff]
      intro a ha
      obtain ⟨k, hk, rfl⟩ := List.getElem_of_mem ha
      rw [List.length_drop] at hk
      rw [List.getElem_drop, decide_eq_true_iff, not_le]
      have hki : i + 1 + k < s.length := by omega
      have b1 : v ≤ s[i + 1 + k] := sorted_le s2 (show j ≤ i + 1 + k by omega) s4 (List.getElem?_eq_getElem hki)
      have b2 : u ≠ s[i + 1 + k] := by
        rw [← hi']
        intro h
        have := (List.Nodup.getElem_inj_iff hd').1 h
        omega
      have b3 : u ≤ s[i + 1 + k] := sorted_le s2 (show i ≤ i + 1 + k by omega) s3 (List.getElem?_eq_getElem hki)
      have b4 : u < s[i + 1 + k] := lt_of_le_of_ne b3 b2
      linarith
    rw [this]
    simp
    omega

/-! ### The ceilings -/

/-- The cutoff of a level. -/
noncomputable def cut (tag : Tag) (rows : List Row) (sm : ℕ) (s : WithTop ℕ) : ℝ :=
  match midQuantile (quantileOf s) ((chosen tag sm rows).map (err tag)) with
  | .ok c => c
  | .error _ => 0

/-- What `mark` does to a row. -/
noncomputable def upd (tag : Tag) (rows : List Row) (sm : ℕ) (m : Marked) (s : WithTop ℕ) : Marked :=
  if err tag m.1 ≤ cut tag rows sm s ∧ sel tag sm m.1 = true then (m.1, s, quantileOf s) else m

theorem upd_fst (tag rows sm m s) : (upd tag rows sm m s).1 = m.1 := by
  unfold upd; split <;> rfl

theorem cut_spec {tag rows sm} (h : chosen tag sm rows ≠ []) (s : WithTop ℕ) :
    midQuantile (quantileOf s) ((chosen tag sm rows).map (err tag)) = .ok (cut tag rows sm s) ∧
    MidPoint (quantileOf s) ((chosen tag sm rows).map (err tag)) (cut tag rows sm s) := by
  obtain ⟨b0, b1⟩ := quantileOf_bounds s
  have hl : (chosen tag sm rows).map (err tag) ≠ [] := by simpa using h
  obtain ⟨c, hc⟩ := midPoint_exists b0 b1 hl
  have hc' := (midQuantile_spec b0 b1 hl c).2 hc
  have : cut tag rows sm s = c := by unfold cut; rw [hc']
  rw [this]
  exact ⟨hc', hc⟩

theorem mark_eq {tag rows sm} (h : chosen tag sm rows ≠ []) (l : List Marked) (hl : l.map (·.1) = rows) (s : WithTop ℕ) :
    mark tag sm l s = .ok (l.map fun m => upd tag rows sm m s) := by
  have e : (l.filter fun m => sel tag sm m.1).map (fun m => err tag m.1) = (chosen tag sm rows).map (err tag) := by
    rw [← filter_sel, ← hl, List.filter_map, List.map_map]
    rfl
  unfold mark
  rw [e, (cut_spec h s).1]
  rfl

theorem marks_eq {tag rows sm} (h : chosen tag sm rows ≠ []) (L : List (WithTop ℕ)) : ∀ (l : List Marked), l.map (·.1) = rows →
    L.foldlM (mark tag sm) l = .ok (l.map fun m => L.foldl (upd tag rows sm) m) := by
  induction L with
  | nil => intro l _; simp [pure, Except.pure]
  | cons s L ih =>
    intro l hl
    rw [List.foldlM_cons, mark_eq h l hl]
    show L.foldlM (mark tag sm) _ = _
    rw [ih _ (by rw [List.map_map, ← hl]; apply List.map_congr_left; intro m _; exact upd_fst ..), List.map_map]
    rfl

theorem upds_fst (tag rows sm) (L : List (WithTop ℕ)) : ∀ m, (L.foldl (upd tag rows sm) m).1 = m.1 := by
  induction L with
  | nil => intro m; rfl
  | cons s L ih => intro m; rw [List.foldl_cons, ih, upd_fst]

theorem identify_eq {tag rows} (L : List (WithTop ℕ)) (S : List ℕ) (h : ∀ sm ∈ S, chosen tag sm rows ≠ []) : ∀ (l : List Marked), l.map (·.1) = rows →
    S.foldlM (fun l sm => L.foldlM (mark tag sm) l) l = .ok (l.map fun m => S.foldl (fun m sm => L.foldl (upd tag rows sm) m) m) := by
  induction S with
  | nil => intro l _; simp [pure, Except.pure]
  | cons sm S ih =>
    intro l hl
    rw [List.foldlM_cons, marks_eq (h sm (by simp)) L l hl]
    show S.foldlM (fun l sm => L.foldlM (mark tag sm) l) _ = _
    rw [ih (fun sm hsm => h sm (by simp [hsm])) _ (by rw [List.map_map, ← hl]; apply List.map_congr_left; intro m _; exact upds_fst ..), List.map_map]
    rfl

theorem upds_other {tag rows sm} (L : List (WithTop ℕ)) (m : Marked) (h : ¬ (m.1.submove = sm ∧ Takes tag m.1)) : L.foldl (upd tag rows sm) m = m := by
  induction L with
  | nil => rfl
  | cons s L ih =>
    have : upd tag rows sm m s = m := by
      unfold upd
      rw [if_neg]
      rintro ⟨-, h'⟩
      exact h (sel_iff.1 h')
    rw [List.foldl_cons, this, ih]

theorem all_other {tag rows} (L : List (WithTop ℕ)) (S : List ℕ) (m : Marked) (h : ∀ sm ∈ S, ¬ (m.1.submove = sm ∧ Takes tag m.1)) :
    S.foldl (fun m sm => L.foldl (upd tag rows sm) m) m = m := by
  induction S with
  | nil => rfl
  | cons sm S ih => rw [List.foldl_cons, upds_other L m (h sm (by simp)), ih (fun sm hsm => h sm (by simp [hsm]))]

theorem upds_least {tag rows sm} (r : Row) (hr : r.submove = sm ∧ Takes tag r) (L : List (WithTop ℕ)) (hL : L.Pairwise (· ≥ ·)) :
    ∃ c, L.foldl (upd tag rows sm) (r, ⊤, 1) = (r, c, quantileOf c) ∧ IsLeast {s | s = ⊤ ∨ s ∈ L ∧ err tag r ≤ cut tag rows sm s} c := by
  induction L using List.reverseRecOn with
  | nil => exact ⟨⊤, rfl, Or.inl rfl, fun s hs => by rcases hs with rfl | ⟨h, -⟩; exacts [le_refl _, absurd h (by simp)]⟩
  | append_singleton L s ih =>
    rw [List.pairwise_append] at hL
    obtain ⟨c, e, hc⟩ := ih hL.1
    rw [List.foldl_append, e]
    by_cases hp : err tag r ≤ cut tag rows sm s
    · refine ⟨s, ?_, Or.inr ⟨by simp, hp⟩, ?_⟩
      · show upd tag rows sm _ s = _
        unfold upd
        rw [if_pos ⟨hp, sel_iff.2 hr⟩]
      · rintro t (rfl | ⟨ht, -⟩)
        · exact le_top
        · rcases List.mem_append.1 ht with ht | ht
          · exact hL.2.2 t ht s (by simp)
          · rw [List.mem_singleton] at ht; rw [ht]
    · refine ⟨c, ?_, ?_, ?_⟩
      · show upd tag rows sm _ s = _
        unfold upd
        rw [if_neg (fun h => hp h.1)]
      · rcases hc.1 with h | ⟨h, h'⟩
        · exact Or.inl h
        · exact Or.inr ⟨by simp [h], h'⟩
      · rintro t (rfl | ⟨ht, h'⟩)
        · exact le_top
        · rcases List.mem_append.1 ht with ht | ht
          · exact hc.2 (Or.inr ⟨ht, h'⟩)
          · rw [List.mem_singleton] at ht
            rw [ht] at h'
            exact absurd h' hp

theorem mem_submoveIds {rows : List Row} {sm : ℕ} : sm ∈ submoveIds rows ↔ ∃ r ∈ rows, r.submove = sm := by
  unfold submoveIds
  simp

theorem nodup_submoveIds (rows : List Row) : (submoveIds rows).Nodup := Finset.sort_nodup _ _

theorem chosen_ne {tag rows} (h : Covered tag rows) {sm : ℕ} (hs : sm ∈ submoveIds rows) : chosen tag sm rows ≠ [] := by
  obtain ⟨r, hr, rfl⟩ := mem_submoveIds.1 hs
  obtain ⟨r', h1, h2, h3⟩ := h r hr
  intro e
  have : r' ∈ chosen tag r.submove rows := List.mem_filter.2 ⟨h1, by simpa using ⟨h2, h3⟩⟩
  rw [e] at this
  cases this

/-- The result of `identify_quantiles`. -/
theorem identify_ok {tag rows} (sigmas : List (WithTop ℕ)) (h : Covered tag rows) :
    ∃ l, identify tag sigmas rows = .ok l ∧ l.map (·.1) = rows ∧ ∀ m ∈ l, m.2.2 = quantileOf m.2.1 ∧ m.1 ∈ rows ∧
      (¬ Takes tag m.1 → m.2.1 = ⊤) ∧
      (Takes tag m.1 → IsLeast {s | s = ⊤ ∨ s ∈ sigmas ∧ err tag m.1 ≤ cut tag rows m.1.submove s} m.2.1) := by
  have hi : identify tag sigmas rows = .ok ((rows.map fun r => ((r, ⊤, 1) : Marked)).map fun m =>
      (submoveIds rows).foldl (fun m sm => (sigmas.insertionSort (· ≥ ·)).foldl (upd tag rows sm) m) m) := by
    unfold identify
    exact identify_eq _ _ (fun sm hsm => chosen_ne h hsm) _ (by rw [List.map_map]; exact List.map_id _)
  have hfst : ∀ (S : List ℕ) (L : List (WithTop ℕ)) (m : Marked), (S.foldl (fun m sm => L.foldl (upd tag rows sm) m) m).1 = m.1 := by
    intro S L
    induction S with
    | nil => intro m; rfl
    | cons sm S ih => intro m; rw [List.foldl_cons, ih, upds_fst]
  refine ⟨_, hi, ?_, ?_⟩
  · rw [List.map_map, List.map_map]
    conv_rhs => rw [← List.map_id rows]
    apply List.map_congr_left
    intro r _
    exact hfst _ _ _
  · intro m hm
    rw [List.map_map, List.mem_map] at hm
    obtain ⟨r, hr, rfl⟩ := hm
    simp only [Function.comp_apply]
    rw [hfst]
    show _ ∧ r ∈ rows ∧ (¬ Takes tag r → _) ∧ (Takes tag r → _)
    by_cases ht : Takes tag r
    · have hmem : r.submove ∈ submoveIds rows := mem_submoveIds.2 ⟨r, hr, rfl⟩
      obtain ⟨A, B, e⟩ := List.append_of_mem hmem
      have hnd := nodup_submoveIds rows
      rw [e] at hnd ⊢
      have hA : ∀ sm ∈ A, ¬ (r.submove = sm ∧ Takes tag r) := by
        rintro sm hsm ⟨rfl, -⟩
        exact (List.nodup_append.1 hnd).2.2 _ hsm _ (by simp) rfl
      have hB : ∀ sm ∈ B, ¬ (r.submove = sm ∧ Takes tag r) := by
        rintro sm hsm ⟨rfl, -⟩
        exact (List.nodup_cons.1 (List.nodup_append.1 hnd).2.1).1 hsm
      obtain ⟨c, ec, hc⟩ := upds_least (rows := rows) r ⟨rfl, ht⟩ (sigmas.insertionSort (· ≥ ·)) (List.pairwise_insertionSort _ _)
      rw [List.foldl_append, all_other _ A _ hA, List.foldl_cons, ec, all_other _ B _ hB]
      refine ⟨rfl, hr, fun h => absurd ht h, fun _ => ?_⟩
      simpa only [List.mem_insertionSort] using hc
    · rw [all_other _ _ _ (fun sm _ h => ht h.2)]
      exact ⟨rfl, hr, fun _ => rfl, fun h => absurd h ht⟩

theorem within_iff {tag rows} {r : Row} (hr : r ∈ rows) (ht : Takes tag r) (s : WithTop ℕ) :
    Within tag rows r s ↔ err tag r ≤ cut tag rows r.submove s := by
  have hne : chosen tag r.submove rows ≠ [] := List.ne_nil_of_mem (List.mem_filter.2 ⟨hr, by simpa using ht⟩)
  unfold Within
  constructor
  · rintro ⟨q, c, h1, h2, h3⟩
    rw [quantileOf_frac] at h1
    subst h1
    rw [midPoint_unique (cut_spec hne s).2 h2]
    exact h3
  · intro h
    exact ⟨_, _, (quantileOf_frac _ _).2 rfl, (cut_spec hne s).2, h⟩

/-! ### Statistics -/

theorem foldl_max {t : List ℝ} : ∀ a : ℝ, IsGreatest {x | x ∈ a :: t} (t.foldl max a) := by
  induction t with
  | nil => intro a; exact ⟨by simp, fun x hx => by simp at hx; exact hx.le⟩
  | cons b t ih =>
    intro a
    rw [List.foldl_cons]
    obtain ⟨h1, h2⟩ := ih (max a b)
    constructor
    · rcases List.mem_cons.1 h1 with h | h
      · rcases max_choice a b with e | e
        · show t.foldl max (max a b) ∈ a :: b :: t
          rw [h, e]; simp
        · show t.foldl max (max a b) ∈ a :: b :: t
          rw [h, e]; simp
      · show t.foldl max (max a b) ∈ a :: b :: t
        simp [h]
    · intro x hx
      have h0 : max a b ≤ t.foldl max (max a b) := h2 (by simp)
      rcases List.mem_cons.1 hx with rfl | hx
      · exact (le_max_left _ _).trans h0
      · rcases List.mem_cons.1 hx with rfl | hx
        · exact (le_max_right _ _).trans h0
        · exact h2 (by simp [hx])

theorem foldl_min {t : List ℝ} : ∀ a : ℝ, IsLeast {x | x ∈ a :: t} (t.foldl min a) := by
  induction t with
  | nil => intro a; exact ⟨by simp, fun x hx => by simp at hx; exact hx.ge⟩
  | cons b t ih =>
    intro a
    rw [List.foldl_cons]
    obtain ⟨h1, h2⟩ := ih (min a b)
    constructor
    · rcases List.mem_cons.1 h1 with h | h
      · rcases min_choice a b with e | e
        · show t.foldl min (min a b) ∈ a :: b :: t
          rw [h, e]; simp
        · show t.foldl min (min a b) ∈ a :: b :: t
          rw [h, e]; simp
      · show t.foldl min (min a b) ∈ a :: b :: t
        simp [h]
    · intro x hx
      have h0 : t.foldl min (min a b) ≤ min a b := h2 (by simp)
      rcases List.mem_cons.1 hx with rfl | hx
      · exact h0.trans (min_le_left _ _)
      · rcases List.mem_cons.1 hx with rfl | hx
        · exact h0.trans (min_le_right _ _)
        · exact h2 (by simp [hx])

theorem stats_ok {l : List ℝ} (h : l ≠ []) : ∃ v, stats l = .ok v := by
  cases l with
  | nil => exact absurd rfl h
  | cons a t => exact ⟨_, rfl⟩

end Pfs

open Pfs

/-- C86: the level of each row is the lowest one whose cutoff is not below the error of the row, among the levels given, and infinity if
there is none or the row does not count; the fraction beside it is the one that belongs to it. -/
theorem C86_ceiling (tag : Tag) (sigmas : List (WithTop ℕ)) (rows : List Row) (h : Covered tag rows) :
    ∃ l, identify tag sigmas rows = .ok l ∧ l.map (·.1) = rows ∧ ∀ r s q, (r, s, q) ∈ l →
      Fraction s q ∧ (¬ Takes tag r → s = ⊤) ∧
      (Takes tag r → (s = ⊤ ∨ s ∈ sigmas ∧ Within tag rows r s) ∧ ∀ t ∈ sigmas, Within tag rows r t → s ≤ t) := by
  obtain ⟨l, h1, h2, h3⟩ := identify_ok sigmas h
  refine ⟨l, h1, h2, ?_⟩
  intro r s q hm
  obtain ⟨g1, g2, g3, g4⟩ := h3 _ hm
  simp only at g1 g2 g3 g4
  refine ⟨(quantileOf_frac _ _).2 g1, g3, fun ht => ?_⟩
  have g5 := g4 ht
  constructor
  · rcases g5.1 with h | ⟨h, h'⟩
    · exact Or.inl h
    · exact Or.inr ⟨h, (within_iff g2 ht s).2 h'⟩
  · intro t htm hw
    exact g5.2 (Or.inr ⟨htm, (within_iff g2 ht t).1 hw⟩)

/-- C86: the summary has one entry for each submove and each level that occurs, computed from the smallest errors of the submove: at least
the fraction `q` of them, and exactly `⌊q (n - 1)⌋ + 1` if no two are the same, all of them for the level infinity. -/
theorem C86_summary (tag : Tag) (sigmas : List (WithTop ℕ)) (rows : List Row) (h : Covered tag rows) :
    ∃ l es, identify tag sigmas rows = .ok l ∧ summary tag l = .ok es ∧
      (es.map fun e => (e.submove, e.sigma)).Nodup ∧
      (∀ sm s, (∃ e ∈ es, e.submove = sm ∧ e.sigma = s) ↔ (∃ r ∈ rows, r.submove = sm) ∧ ∃ m ∈ l, m.2.1 = s) ∧
      ∀ e ∈ es, Fraction e.sigma e.quantile ∧ ∃ c : ℝ,
        let S := (chosen tag e.submove rows).map (err tag)
        stats (S.filter (· ≤ c)) = .ok e.values ∧ e.nTargets = (S.filter (· ≤ c)).length ∧
        ⌊e.quantile * ((S.length : ℝ) - 1)⌋₊ + 1 ≤ e.nTargets ∧
        (S.Nodup → e.nTargets = ⌊e.quantile * ((S.length : ℝ) - 1)⌋₊ + 1) ∧ (e.sigma = ⊤ → S.filter (· ≤ c) = S) := by
  obtain ⟨l, h1, h2, h3⟩ := identify_ok sigmas h
  -- the levels
  have hlev : ∀ lv ∈ levels l, lv.2 = quantileOf lv.1 ∧ ∃ m ∈ l, m.2.1 = lv.1 := by
    intro lv hlv
    unfold levels at hlv
    obtain ⟨s, hs, rfl⟩ := List.mem_map.1 hlv
    rw [Finset.mem_sort, List.mem_toFinset] at hs
    obtain ⟨m, hm, e⟩ := List.mem_map.1 hs
    refine ⟨?_, m, hm, e⟩
    show ((l.filter fun m => m.2.1 = s).map (·.2.2)).headD 0 = quantileOf s
    cases hf : l.filter fun m => m.2.1 = s with
    | nil =>
      have : m ∈ l.filter fun m => m.2.1 = s := List.mem_filter.2 ⟨hm, by simpa using e⟩
      rw [hf] at this
      cases this
    | cons m' t =>
      have : m' ∈ l.filter fun m => m.2.1 = s := by rw [hf]; simp
      obtain ⟨g1, g2⟩ := List.mem_filter.1 this
      show m'.2.2 = _
      rw [(h3 m' g1).1, of_decide_eq_true g2]
  have hlev' : (levels l).map (·.1) = (l.map (·.2.1)).toFinset.sort (· ≤ ·) := by
    unfold levels
    rw [List.map_map]
    exact List.map_id _
  -- the selected rows
  have hsel : ∀ sm lv, lv ∈ levels l → (l.filter fun m => decide (m.2.2 ≤ lv.2) && sel tag sm m.1).map (fun m => err tag m.1) =
      ((chosen tag sm rows).map (err tag)).filter (· ≤ cut tag rows sm lv.1) := by
    intro sm lv hlv
    obtain ⟨e1, m0, hm0, e2⟩ := hlev lv hlv
    have : l.filter (fun m => decide (m.2.2 ≤ lv.2) && sel tag sm m.1) =
        l.filter (fun m => decide (err tag m.1 ≤ cut tag rows sm lv.1) && sel tag sm m.1) := by
      apply List.filter_congr
      intro m hm
      obtain ⟨g1, g2, g3, g4⟩ := h3 m hm
      by_cases hs : sel tag sm m.1 = true
      · obtain ⟨rfl, ht⟩ := sel_iff.1 hs
        have hne : chosen tag m.1.submove rows ≠ [] := chosen_ne h (mem_submoveIds.2 ⟨_, g2, rfl⟩)
        have hl := g4 ht
        rw [hs, Bool.and_true, Bool.and_true, decide_eq_decide, g1, e1, quantileOf_mono.le_iff_le]
        have hmapne : (chosen tag m.1.submove rows).map (err tag) ≠ [] := by simpa using hne
        have htop : err tag m.1 ≤ cut tag rows m.1.submove ⊤ := by
          have hq : quantileOf ⊤ = 1 := rfl
          have := (cut_spec hne ⊤).2
          rw [hq] at this
          exact midPoint_top this _ (List.mem_map.2 ⟨m.1, List.mem_filter.2 ⟨g2, by simpa using ht⟩, rfl⟩)
        constructor
        · intro hle
          have hmono := midPoint_mono hmapne (quantileOf_mono.monotone hle) (cut_spec hne m.2.1).2 (cut_spec hne lv.1).2
          rcases hl.1 with hc | ⟨-, hc⟩
          · rw [hc] at hmono
            exact htop.trans hmono
          · exact hc.trans hmono
        · intro hle
          apply hl.2
          rcases (by
            obtain ⟨-, -, k3, k4⟩ := h3 m0 hm0
            rw [e2] at k3 k4
            by_cases k : Takes tag m0.1
            · rcases (k4 k).1 with k | k
              · exact Or.inl k
              · exact Or.inr k.1
            · exact Or.inl (k3 k) : lv.1 = ⊤ ∨ lv.1 ∈ sigmas) with k | k
          · exact Or.inl k
          · exact Or.inr ⟨k, hle⟩
      · rw [Bool.not_eq_true] at hs
        rw [hs, Bool.and_false, Bool.and_false]
    rw [this]
    rw [← filter_sel, ← h2, List.filter_map, List.filter_map, List.filter_map, List.filter_filter, List.map_map]
    rfl
  have hent : ∀ sm ∈ submoveIds rows, ∀ lv ∈ levels l, ∃ e, entry tag l sm lv = .ok e ∧ e.submove = sm ∧ e.sigma = lv.1 ∧ e.quantile = lv.2 ∧
      e.nTargets = (((chosen tag sm rows).map (err tag)).filter (· ≤ cut tag rows sm lv.1)).length ∧
      stats (((chosen tag sm rows).map (err tag)).filter (· ≤ cut tag rows sm lv.1)) = .ok e.values := by
    intro sm hsm lv hlv
    have hne := chosen_ne h hsm
    have hcount := (midPoint_count (cut_spec hne lv.1).2).1
    have hne' : ((chosen tag sm rows).map (err tag)).filter (· ≤ cut tag rows sm lv.1) ≠ [] := by
      intro e
      rw [e] at hcount
      simp at hcount
    obtain ⟨v, hv⟩ := stats_ok hne'
    refine ⟨⟨sm, lv.1, lv.2, _, v⟩, ?_, rfl, rfl, rfl, rfl, hv⟩
    unfold entry
    dsimp only
    rw [hsel sm lv hlv, hv]
    rfl
  have hents : ∀ sm ∈ submoveIds rows, ∃ es, entries tag l sm = .ok es ∧ List.Forall₂ (fun lv e => entry tag l sm lv = .ok e) (levels l) es := by
    intro sm hsm
    have hne := chosen_ne h hsm
    have hemp : (l.filter fun m => sel tag sm m.1).isEmpty = false := by
      rw [← Bool.not_eq_true, List.isEmpty_iff]
      intro e
      apply hne
      rw [← filter_sel, ← h2, List.filter_map]
      rw [show (sel tag sm ∘ fun m : Marked => m.1) = fun m => sel tag sm m.1 from rfl, e]
      rfl
    unfold entries
    rw [hemp]
    have := FpMetrology.mapM_ok_of (f := entry tag l sm) (l := levels l) (fun lv hlv => by obtain ⟨e, he, -⟩ := hent sm hsm lv hlv; exact ⟨e, he⟩)
    obtain ⟨es, hes⟩ := this
    exact ⟨es, hes, (Gpm.mapM_iff _ _ _).1 hes⟩
  have hall : ∃ ess, (submoveIds rows).mapM (entries tag l) = .ok ess :=
    FpMetrology.mapM_ok_of (fun sm hsm => by obtain ⟨es, hes, -⟩ := hents sm hsm; exact ⟨es, hes⟩)
  obtain ⟨ess, hess⟩ := hall
  have hF := (Gpm.mapM_iff _ _ _).1 hess
  have hkeys : (ess.flatten.map fun e => (e.submove, e.sigma)) = (submoveIds rows).flatMap fun sm => ((levels l).map (·.1)).map (sm, ·) := by
    have : ∀ (S : List ℕ) (T : List (List Entry)), (∀ sm ∈ S, sm ∈ submoveIds rows) → List.Forall₂ (fun sm es => entries tag l sm = .ok es) S T →
        (T.flatten.map fun e => (e.submove, e.sigma)) = S.flatMap fun sm => ((levels l).map (·.1)).map (sm, ·) := by
      intro S T hS hT
      induction hT with
      | nil => rfl
      | @cons sm es S T hs _ ih =>
        rw [List.flatten_cons, List.map_append, List.flatMap_cons, ih (fun x hx => hS x (by simp [hx]))]
        congr 1
        obtain ⟨es', hs', hf⟩ := hents sm (hS sm (by simp))
        rw [hs] at hs'
        injection hs' with hs'
        subst hs'
        generalize hLv : levels l = Lv at hf ⊢
        clear hs ih
        have hlv : ∀ lv ∈ Lv, lv ∈ levels l := fun _ h => by rw [hLv]; exact h
        clear hLv
        induction hf with
        | nil => rfl
        | @cons lv e Lv es he _ ih2 =>
          rw [List.map_cons, List.map_cons, List.map_cons, ih2 (fun x hx => hlv x (by simp [hx]))]
          obtain ⟨e', he', k1, k2, -⟩ := hent sm (hS sm (by simp)) lv (hlv lv (by simp))
          rw [he] at he'
          injection he' with he'
          subst he'
          rw [k1, k2]
    exact this _ _ (fun _ h => h) hF
  refine ⟨l, ess.flatten, h1, ?_, ?_, ?_, ?_⟩
  · unfold summary
    rw [h2, hess]
    rfl
  · rw [hkeys, hlev']
    exact List.Nodup.product (nodup_submoveIds rows) (Finset.sort_nodup _ _)
  · intro sm s
    have : (∃ e ∈ ess.flatten, e.submove = sm ∧ e.sigma = s) ↔ (sm, s) ∈ ess.flatten.map fun e => (e.submove, e.sigma) := by
      rw [List.mem_map]
      simp only [Prod.mk.injEq]
    rw [this, hkeys, hlev', ← mem_submoveIds]
    simp only [List.mem_flatMap, List.mem_map, Prod.mk.injEq, Finset.mem_sort, List.mem_toFinset]
    constructor
    · rintro ⟨sm', a, s', ⟨m, hm, e⟩, rfl, rfl⟩
      exact ⟨a, m, hm, e⟩
    · rintro ⟨a, m, hm, e⟩
      exact ⟨sm, a, s, ⟨m, hm, e⟩, rfl, rfl⟩
  · intro e he
    obtain ⟨es, hes, hee⟩ := List.mem_flatten.1 he
    obtain ⟨sm, hsm, hs⟩ := FpMetrology.forall₂_mem' hF hes
    obtain ⟨es', hs', hf⟩ := hents sm hsm
    rw [hs] at hs'
    injection hs' with hs'
    subst hs'
    obtain ⟨lv, hlv, hen⟩ := FpMetrology.forall₂_mem' hf hee
    obtain ⟨e', he', k1, k2, k3, k4, k5⟩ := hent sm hsm lv hlv
    rw [hen] at he'
    injection he' with he'
    subst he'
    obtain ⟨q1, -⟩ := hlev lv hlv
    have hne := chosen_ne h hsm
    have hmid := (cut_spec hne lv.1).2
    obtain ⟨n1, n2⟩ := midPoint_count hmid
    rw [k1, k2, k3, k4]
    refine ⟨(quantileOf_frac _ _).2 q1, cut tag rows sm lv.1, k5, rfl, ?_, ?_, ?_⟩
    · rw [q1]; exact n1
    · rw [q1]; exact n2
    · intro ht
      rw [List.filter_eq_self]
      intro x hx
      rw [decide_eq_true_iff]
      rw [ht] at hmid ⊢
      exact midPoint_top hmid x hx

/-- The rows of a positioner are kept exactly if every submove has an accepted row. -/
theorem Pfs.kept_iff (posId : ℕ) (rows : List Row) : (analyzeStats posId rows).isSome = true ↔ rows ≠ [] ∧ Covered .accepted rows := by
  have hone : ∀ sm ∈ submoveIds rows, (statOne posId rows sm).isSome = true ↔ chosen .accepted sm rows ≠ [] := by
    intro sm hsm
    have ht : chosen .tracked sm rows ≠ [] := by
      obtain ⟨r, hr, rfl⟩ := mem_submoveIds.1 hsm
      exact List.ne_nil_of_mem (List.mem_filter.2 ⟨hr, by simp [Takes]⟩)
    have hr : chosen .requested sm rows ≠ [] := by
      obtain ⟨r, hr, rfl⟩ := mem_submoveIds.1 hsm
      exact List.ne_nil_of_mem (List.mem_filter.2 ⟨hr, by simp [Takes]⟩)
    have e1 := stats_ok (l := (chosen .tracked sm rows).map (err .tracked)) (by simpa using ht)
    have e2 := stats_ok (l := (chosen .requested sm rows).map (err .requested)) (by simpa using hr)
    obtain ⟨v1, e1⟩ := e1
    obtain ⟨v2, e2⟩ := e2
    unfold statOne
    simp only [statTags, List.map_cons, List.map_nil, filter_sel, List.mapM_cons, List.mapM_nil, e1, e2]
    cases hc : chosen .tracked sm rows with
    | nil => exact absurd hc ht
    | cons a t =>
      cases ha : chosen .accepted sm rows with
      | nil => simp [stats, Except.toOption]
      | cons b u => simp [stats, Except.toOption]
  have hcov : Covered .accepted rows ↔ ∀ sm ∈ submoveIds rows, chosen .accepted sm rows ≠ [] := by
    constructor
    · intro h sm hsm
      exact chosen_ne h hsm
    · intro h r hr
      obtain ⟨r', hr'⟩ := List.exists_mem_of_ne_nil _ (h r.submove (mem_submoveIds.2 ⟨r, hr, rfl⟩))
      obtain ⟨g1, g2⟩ := List.mem_filter.1 hr'
      rw [decide_eq_true_iff] at g2
      exact ⟨r', g1, g2⟩
  have hmap : ∀ S : List ℕ, (S.mapM (statOne posId rows)).isSome = true ↔ ∀ sm ∈ S, (statOne posId rows sm).isSome = true := by
    intro S
    induction S with
    | nil => simp
    | cons sm S ih =>
      rw [List.mapM_cons, List.forall_mem_cons, ← ih]
      cases statOne posId rows sm <;> cases S.mapM (statOne posId rows) <;> simp
  unfold analyzeStats
  by_cases he : rows = []
  · subst he; simp
  · have he' : rows.isEmpty = false := by rw [← Bool.not_eq_true, List.isEmpty_iff]; exact he
    rw [he', hcov]
    simp only [Bool.false_eq_true, if_false]
    rw [hmap]
    constructor
    · intro h; exact ⟨he, fun sm hsm => (hone sm hsm).1 (h sm hsm)⟩
    · rintro ⟨-, h⟩ sm hsm; exact (hone sm hsm).2 (h sm hsm)

theorem Pfs.covered_merged (tag : Tag) (tables : List (ℕ × List Row)) : Covered tag (merged tables) := by
  intro r hr
  unfold merged at hr ⊢
  obtain ⟨t, ht, hrt⟩ := List.mem_flatMap.1 hr
  obtain ⟨h1, h2⟩ := List.mem_filter.1 ht
  obtain ⟨-, hc⟩ := (kept_iff t.1 t.2).1 h2
  obtain ⟨r', g1, g2, g3⟩ := hc r hrt
  exact ⟨r', List.mem_flatMap.2 ⟨t, ht, g1⟩, g2, fun _ => g3 rfl⟩

/-- C86: the merged table has exactly the rows of the positioners for which every submove has an accepted row, and for it the summaries of
all three kinds of targets are computed without error. -/
theorem C86_merged (tables : List (ℕ × List Row)) :
    (∀ r, r ∈ merged tables ↔ ∃ t ∈ tables, r ∈ t.2 ∧ ∀ r₁ ∈ t.2, ∃ r₂ ∈ t.2, r₂.submove = r₁.submove ∧ r₂.accepted = true) ∧
    (∀ tag, ∃ es, binned tag tables = .ok es) ∧
    (merged tables ≠ [] → ∃ m, metadata (merged tables) = .ok m) := by
  refine ⟨?_, ?_, ?_⟩
  · intro r
    unfold merged
    rw [List.mem_flatMap]
    constructor
    · rintro ⟨t, ht, hr⟩
      obtain ⟨h1, h2⟩ := List.mem_filter.1 ht
      obtain ⟨-, hc⟩ := (kept_iff t.1 t.2).1 h2
      refine ⟨t, h1, hr, fun r₁ h₁ => ?_⟩
      obtain ⟨r', g1, g2, g3⟩ := hc r₁ h₁
      exact ⟨r', g1, g2, g3 rfl⟩
    · rintro ⟨t, ht, hr, h⟩
      refine ⟨t, List.mem_filter.2 ⟨ht, (kept_iff t.1 t.2).2 ⟨List.ne_nil_of_mem hr, fun r₁ h₁ => ?_⟩⟩, hr⟩
      obtain ⟨r', g1, g2, g3⟩ := h r₁ h₁
      exact ⟨r', g1, g2, fun _ => g3⟩
  · intro tag
    obtain ⟨l, es, h1, h2, -⟩ := C86_summary tag defaultSigmas (merged tables) (covered_merged tag tables)
    refine ⟨es, ?_⟩
    unfold binned
    rw [h1]
    exact h2
  · intro h
    unfold metadata
    obtain ⟨r, hr⟩ := List.exists_mem_of_ne_nil _ h
    cases e : (submoveIds (merged tables)).map fun s => ((merged tables).filter (·.submove == s)).length with
    | nil =>
      have := mem_submoveIds.2 ⟨r, hr, rfl⟩
      rw [List.map_eq_nil_iff] at e
      rw [e] at this
      cases this
    | cons n ns => exact ⟨_, rfl⟩

/-- C86: the statistics of a positioner: one row for each submove in order, with the numbers of all and of the accepted targets, the smallest
scales, and the statistics of the errors for the three kinds of targets. -/
theorem C86_positioner (posId : ℕ) (rows : List Row) (out : List PosStat) (h : analyzeStats posId rows = some out) :
    (out.map (·.submove)).Pairwise (· < ·) ∧ (∀ sm, sm ∈ out.map (·.submove) ↔ ∃ r ∈ rows, r.submove = sm) ∧
    ∀ p ∈ out, p.posId = posId ∧
      (let S := rows.filter fun r => r.submove = p.submove
       let A := S.filter (·.accepted)
       p.counts = [S.length, S.length, A.length] ∧
       IsLeast {x | x ∈ S.map (·.gearT)} p.gearT ∧ IsLeast {x | x ∈ S.map (·.gearP)} p.gearP ∧
       ∃ a b c, p.values = [a, b, c] ∧ stats (S.map (·.errTracked)) = .ok a ∧ stats (S.map (·.errRequested)) = .ok b ∧
         stats (A.map (·.errRequested)) = .ok c) := by
  have hone : ∀ sm p, statOne posId rows sm = some p → p.posId = posId ∧ p.submove = sm ∧
      (let S := rows.filter fun r => r.submove = sm
       let A := S.filter (·.accepted)
       p.counts = [S.length, S.length, A.length] ∧
       IsLeast {x | x ∈ S.map (·.gearT)} p.gearT ∧ IsLeast {x | x ∈ S.map (·.gearP)} p.gearP ∧
       ∃ a b c, p.values = [a, b, c] ∧ stats (S.map (·.errTracked)) = .ok a ∧ stats (S.map (·.errRequested)) = .ok b ∧
         stats (A.map (·.errRequested)) = .ok c) := by
    intro sm p hp
    have c1 : chosen .tracked sm rows = rows.filter fun r => r.submove = sm := by
      unfold chosen; apply List.filter_congr; intro r _; simp [Takes]
    have c2 : chosen .requested sm rows = rows.filter fun r => r.submove = sm := by
      unfold chosen; apply List.filter_congr; intro r _; simp [Takes]
    have c3 : chosen .accepted sm rows = (rows.filter fun r => r.submove = sm).filter (·.accepted) := by
      unfold chosen; rw [List.filter_filter]; apply List.filter_congr; intro r _; simp [Takes, and_comm]
    unfold statOne at hp
    simp only [statTags, List.map_cons, List.map_nil, filter_sel, List.mapM_cons, List.mapM_nil, c1, c2, c3] at hp
    dsimp only
    generalize (rows.filter fun r => r.submove = sm) = S at hp ⊢
    change (do
      let values ← (do
        let a ← (stats (S.map (·.errTracked))).toOption
        let bs ← (do
          let b ← (stats (S.map (·.errRequested))).toOption
          let cs ← (do
            let c ← (stats ((S.filter (·.accepted)).map (·.errRequested))).toOption
            return [c])
          return b :: cs)
        return a :: bs : Option (List Stats))
      match S with
      | [] => none
      | a :: t => some ({ posId := posId, submove := sm, gearT := (t.map (·.gearT)).foldl min a.gearT, gearP := (t.map (·.gearP)).foldl min a.gearP, counts := [(S.map (·.errTracked)).length, (S.map (·.errRequested)).length, ((S.filter (·.accepted)).map (·.errRequested)).length], values := values } : PosStat)) = some p at hp
    cases ha : stats (S.map (·.errTracked)) with
    | error e => rw [ha] at hp; cases hp
    | ok a =>
      cases hb : stats (S.map (·.errRequested)) with
      | error e => rw [ha, hb] at hp; cases hp
      | ok b =>
        cases hc : stats ((S.filter (·.accepted)).map (·.errRequested)) with
        | error e => rw [ha, hb, hc] at hp; cases hp
        | ok c =>
          rw [ha, hb, hc] at hp
          cases S with
          | nil => cases hp
          | cons x t =>
            injection hp with hp
            subst hp
            refine ⟨rfl, rfl, by simp, foldl_min _, foldl_min _, a, b, c, rfl, rfl, rfl, rfl⟩
  unfold analyzeStats at h
  by_cases he : rows.isEmpty = true
  · rw [if_pos he] at h; cases h
  rw [if_neg he] at h
  have hF : ∀ (S : List ℕ) (out : List PosStat), S.mapM (statOne posId rows) = some out → List.Forall₂ (fun sm p => statOne posId rows sm = some p) S out := by
    intro S
    induction S with
    | nil => intro out h; simp at h; subst h; exact .nil
    | cons sm S ih =>
      intro out h
      rw [List.mapM_cons] at h
      cases h1 : statOne posId rows sm with
      | none => rw [h1] at h; cases h
      | some p =>
        cases h2 : S.mapM (statOne posId rows) with
        | none => rw [h1, h2] at h; cases h
        | some ps =>
          rw [h1, h2] at h
          injection h with h
          subst h
          exact .cons h1 (ih ps h2)
  have hF := hF _ _ h
  have hsub : out.map (·.submove) = submoveIds rows := by
    clear h he
    generalize submoveIds rows = S at hF
    induction hF with
    | nil => rfl
    | cons h1 _ ih => rw [List.map_cons, ih, (hone _ _ h1).2.1]
  refine ⟨?_, ?_, ?_⟩
  · rw [hsub]
    exact (Finset.sortedLT_sort _).pairwise
  · intro sm; rw [hsub, mem_submoveIds]
  · intro p hp
    obtain ⟨sm, -, hs⟩ := FpMetrology.forall₂_mem' hF hp
    obtain ⟨g1, g2, g3⟩ := hone sm p hs
    rw [g2]
    exact ⟨g1, g3⟩

/-- C86: the six statistics of a list of errors: extreme values, and for errors that are not negative the mean is between the smallest and the
root mean square, which is at most the largest; the mean square is the square of the mean and the variance. -/
theorem C86_stats (l : List ℝ) (v : Stats) (h : stats l = .ok v) :
    IsGreatest {x | x ∈ l} v.max ∧ IsLeast {x | x ∈ l} v.min ∧ v.mean * l.length = l.sum ∧ v.min ≤ v.mean ∧ v.mean ≤ v.max ∧
    v.rms ^ 2 = v.mean ^ 2 + v.std ^ 2 ∧ 0 ≤ v.std ∧ |v.mean| ≤ v.rms ∧ ((∀ x ∈ l, 0 ≤ x) → v.rms ≤ v.max) ∧
    (v.rms ^ 2 * l.length = (l.map (· ^ 2)).sum) ∧ 0 ≤ v.rms := by
  cases l with
  | nil => cases h
  | cons a t =>
    injection h with h
    subst h
    have hmax := foldl_max (t := t) a
    have hmin := foldl_min (t := t) a
    dsimp only
    generalize hM : t.foldl max a = M at hmax ⊢
    generalize hm : t.foldl min a = m at hmin ⊢
    have hne : a :: t ≠ [] := by simp
    generalize a :: t = l at *
    have hn : (0 : ℝ) < l.length := by exact_mod_cast List.length_pos_iff.2 hne
    have hsumM : ∀ (l : List ℝ) (c : ℝ), (∀ x ∈ l, x ≤ c) → l.sum ≤ l.length * c := by
      intro l c
      induction l with
      | nil => simp
      | cons x l ih =>
        intro h
        have h1 := h x (by simp)
        have h2 := ih (fun y hy => h y (by simp [hy]))
        rw [List.sum_cons, List.length_cons]
        push_cast
        linarith
    have hsumm : ∀ (l : List ℝ) (c : ℝ), (∀ x ∈ l, c ≤ x) → l.length * c ≤ l.sum := by
      intro l c
      induction l with
      | nil => simp
      | cons x l ih =>
        intro h
        have h1 := h x (by simp)
        have h2 := ih (fun y hy => h y (by simp [hy]))
        rw [List.sum_cons, List.length_cons]
        push_cast
        linarith
    have hmean : mean l * l.length = l.sum := by unfold mean; field_simp
    have hsq : 0 ≤ (l.map (· ^ 2)).sum := List.sum_nonneg (by intro x hx; obtain ⟨y, -, rfl⟩ := List.mem_map.1 hx; positivity)
    have hrms : Real.sqrt ((l.map (· ^ 2)).sum / l.length) ^ 2 = (l.map (· ^ 2)).sum / l.length := Real.sq_sqrt (by positivity)
    have hvar : ∀ (l : List ℝ) (c : ℝ), (l.map fun x => (x - c) ^ 2).sum = (l.map (· ^ 2)).sum - 2 * c * l.sum + l.length * c ^ 2 := by
      intro l c
      induction l with
      | nil => simp
      | cons x l ih =>
        simp only [List.map_cons, List.sum_cons, List.length_cons, ih]
        push_cast
        ring
    have hvn : 0 ≤ (l.map fun x => (x - mean l) ^ 2).sum := List.sum_nonneg (by intro x hx; obtain ⟨y, -, rfl⟩ := List.mem_map.1 hx; positivity)
    have hstd : Real.sqrt (mean (l.map fun x => (x - mean l) ^ 2)) ^ 2 = (l.map (· ^ 2)).sum / l.length - mean l ^ 2 := by
      have e : mean (l.map fun x => (x - mean l) ^ 2) = (l.map fun x => (x - mean l) ^ 2).sum / l.length := by
        show (l.map fun x => (x - mean l) ^ 2).sum / ((l.map fun x => (x - mean l) ^ 2).length : ℝ) = _
        rw [List.length_map]
      rw [e, Real.sq_sqrt (by positivity), hvar, ← hmean]
      field_simp
      ring
    have hid : Real.sqrt ((l.map (· ^ 2)).sum / l.length) ^ 2 = mean l ^ 2 + Real.sqrt (mean (l.map fun x => (x - mean l) ^ 2)) ^ 2 := by
      rw [hrms, hstd]; ring
    refine ⟨hmax, hmin, hmean, ?_, ?_, hid, Real.sqrt_nonneg _, ?_, ?_, ?_, Real.sqrt_nonneg _⟩
    · have := hsumm l m (fun x hx => hmin.2 hx)
      rw [← hmean] at this
      nlinarith
    · have := hsumM l M (fun x hx => hmax.2 hx)
      rw [← hmean] at this
      nlinarith
    · apply abs_le_of_sq_le_sq _ (Real.sqrt_nonneg _)
      rw [hid]
      nlinarith [sq_nonneg (Real.sqrt (mean (l.map fun x => (x - mean l) ^ 2)))]
    · intro h0
      have hM0 : 0 ≤ M := h0 M hmax.1
      apply Real.sqrt_le_iff.2 ⟨hM0, ?_⟩
      rw [div_le_iff₀ hn]
      have := hsumM (l.map (· ^ 2)) (M ^ 2) (by
        intro x hx
        obtain ⟨y, hy, rfl⟩ := List.mem_map.1 hx
        have := hmax.2 hy
        exact pow_le_pow_left₀ (h0 y hy) this 2)
      rw [List.length_map] at this
      linarith
    · rw [hrms]; field_simp

/-- C86: the median lies between the middle values: not more than half of the values are smaller and not more than half are larger. -/
theorem C86_median (l : List ℝ) (h : l ≠ []) :
    2 * (l.filter (· < median l)).length ≤ l.length ∧ 2 * (l.filter (median l < ·)).length ≤ l.length := by
  have hn : 0 < l.length := List.length_pos_iff.2 h
  have hs : (l.insertionSort (· ≤ ·)).length = l.length := List.length_insertionSort _ _
  have hp := List.pairwise_insertionSort (r := (· ≤ ·)) l
  have hperm := List.perm_insertionSort (r := (· ≤ ·)) l
  rw [← (hperm.filter _).length_eq, ← (hperm.filter (median l < ·)).length_eq]
  -- positions of the two values averaged
  obtain ⟨i, j, hij, hj, hi2, hj2, u, v, hu, hv, hm⟩ : ∃ i j, i ≤ j ∧ j < l.length ∧ 2 * j ≤ l.length ∧ l.length ≤ 2 * (i + 1) ∧ ∃ u v,
      (l.insertionSort (· ≤ ·))[i]? = some u ∧ (l.insertionSort (· ≤ ·))[j]? = some v ∧ median l = (u + v) / 2 := by
    unfold median
    dsimp only
    by_cases ho : l.length % 2 = 1
    · rw [if_pos ho]
      have g := List.getElem?_eq_getElem (l := l.insertionSort (· ≤ ·)) (i := l.length / 2) (by omega)
      refine ⟨l.length / 2, l.length / 2, le_refl _, by omega, by omega, by omega, _, _, g, g, ?_⟩
      rw [List.getD_eq_getElem?_getD, g, Option.getD_some]
      ring
    · rw [if_neg ho]
      have g1 := List.getElem?_eq_getElem (l := l.insertionSort (· ≤ ·)) (i := l.length / 2 - 1) (by omega)
      have g2 := List.getElem?_eq_getElem (l := l.insertionSort (· ≤ ·)) (i := l.length / 2) (by omega)
      refine ⟨l.length / 2 - 1, l.length / 2, by omega, by omega, by omega, by omega, _, _, g1, g2, ?_⟩
      rw [List.getD_eq_getElem?_getD, List.getD_eq_getElem?_getD, g1, g2, Option.getD_some, Option.getD_some]
  rw [hm]
  have huv := sorted_le hp hij hu hv
  generalize l.insertionSort (· ≤ ·) = s at hs hp hu hv
  constructor
  · -- the values from `j` on are not smaller
    have : (s.drop j).filter (· < (u + v) / 2) = [] := by
      rw [List.filter_eq_nil_iff]
      intro x hx
      obtain ⟨k, hk, rfl⟩ := List.getElem_of_mem hx
      rw [List.length_drop] at hk
      have := sorted_le hp (show j ≤ j + k by omega) hv (List.getElem?_eq_getElem (by omega))
      rw [List.getElem_drop, decide_eq_true_iff, not_lt]
      linarith
    have e : s.filter (· < (u + v) / 2) = (s.take j).filter (· < (u + v) / 2) := by
      conv_lhs => rw [← List.take_append_drop j s, List.filter_append, this, List.append_nil]
    rw [e]
    have := List.length_filter_le (fun x => decide (x < (u + v) / 2)) (s.take j)
    rw [List.length_take] at this
    omega
  · have : (s.take (i + 1)).filter ((u + v) / 2 < ·) = [] := by
      rw [List.filter_eq_nil_iff]
      intro x hx
      obtain ⟨k, hk, rfl⟩ := List.getElem_of_mem hx
      rw [List.length_take] at hk
      have := sorted_le hp (show k ≤ i by omega) (List.getElem?_eq_getElem (by omega)) hu
      rw [List.getElem_take, decide_eq_true_iff, not_lt]
      linarith
    have e : s.filter ((u + v) / 2 < ·) = (s.drop (i + 1)).filter ((u + v) / 2 < ·) := by
      conv_lhs => rw [← List.take_append_drop (i + 1) s, List.filter_append, this, List.nil_append]
    rw [e]
    have := List.length_filter_le (fun x => decide ((u + v) / 2 < x)) (s.drop (i + 1))
    rw [List.length_drop] at this
    omega

/-- C86: the number of targets in the metadata is that of the first submove, and the mean number of corrections is the number of rows of the
later submoves for each row of the first. -/
theorem C86_metadata (rows : List Row) (n : ℕ) (k : ℝ) (h : metadata rows = .ok (n, k)) :
    ∃ s, IsLeast {s | ∃ r ∈ rows, r.submove = s} s ∧ n = (rows.filter fun r => r.submove = s).length ∧ 0 < n ∧
      k * n = (rows.filter fun r => r.submove ≠ s).length := by
  unfold metadata at h
  have hsorted : (submoveIds rows).Pairwise (· < ·) := (Finset.sortedLT_sort _).pairwise
  have hmem : ∀ s, s ∈ submoveIds rows ↔ ∃ r ∈ rows, r.submove = s := fun s => mem_submoveIds
  cases hs : submoveIds rows with
  | nil => rw [hs] at h; cases h
  | cons s S =>
    rw [hs, List.map_cons] at h
    injection h with h
    injection h with hn hk
    rw [hs] at hsorted hmem
    have hsum : ∀ (S : List ℕ), S.Nodup → (S.map fun s => (rows.filter (·.submove == s)).length).sum = (rows.filter fun r => r.submove ∈ S).length := by
      intro S
      induction S with
      | nil => intro _; simp
      | cons s S ih =>
        intro hnd
        obtain ⟨h1, h2⟩ := List.nodup_cons.1 hnd
        rw [List.map_cons, List.sum_cons, ih h2, ← List.countP_eq_length_filter, ← List.countP_eq_length_filter, ← List.countP_eq_length_filter]
        clear ih h2 hnd hs hsorted hmem hn hk
        induction rows with
        | nil => rfl
        | cons r rows ih =>
          simp only [List.countP_cons] at ih ⊢
          rw [← ih]
          by_cases e : r.submove = s
          · simp [e, h1]; omega
          · by_cases e' : r.submove ∈ S
            · simp [e, e']; omega
            · simp [e, e']
    have hall : (rows.filter fun r => r.submove ∈ s :: S).length = rows.length := by
      congr 1
      rw [List.filter_eq_self]
      intro r hr
      exact decide_eq_true ((hmem _).2 ⟨r, hr, rfl⟩)
    have hn' : n = (rows.filter fun r => r.submove = s).length := by
      rw [← hn]
      congr 1
    obtain ⟨r, hr, hrs⟩ := (hmem s).1 (by simp)
    have hpos : 0 < n := by
      rw [hn']
      exact List.length_pos_of_mem (List.mem_filter.2 ⟨hr, by simpa using hrs⟩)
    refine ⟨s, ⟨⟨r, hr, hrs⟩, ?_⟩, hn', hpos, ?_⟩
    · rintro t ⟨r', hr', rfl⟩
      rcases List.mem_cons.1 ((hmem r'.submove).2 ⟨r', hr', rfl⟩) with e | e
      · rw [e]
      · exact ((List.pairwise_cons.1 hsorted).1 _ e).le
    · have hnd : (s :: S).Nodup := hsorted.imp (fun h => ne_of_lt h)
      have htot := hsum _ hnd
      rw [hall, List.map_cons] at htot
      rw [htot, hn] at hk
      have hsplit : (rows.filter fun r => r.submove = s).length + (rows.filter fun r => r.submove ≠ s).length = rows.length := by
        have := List.length_eq_length_filter_add (l := rows) (fun r => decide (r.submove = s))
        rw [this]
        congr 2
        apply List.filter_congr
        intro r _
        simp
      rw [← hk, ← hsplit, ← hn']
      have : (0 : ℝ) < n := by exact_mod_cast hpos
      push_cast
      field_simp
      ring

/-- **C86** (finding) one submove without accepted rows removes all rows of the positioner from all results. -/
theorem C86_dropped (posId : ℕ) (rows : List Row) (sm : ℕ) (r : Row) (hr : r ∈ rows) (hs : r.submove = sm)
    (h : ∀ r' ∈ rows, r'.submove = sm → r'.accepted = false) : analyzeStats posId rows = none ∧ merged [(posId, rows)] = [] := by
  have hn : ¬ (analyzeStats posId rows).isSome = true := by
    rw [kept_iff]
    rintro ⟨-, hc⟩
    obtain ⟨r', g1, g2, g3⟩ := hc r hr
    have := h r' g1 (g2.trans hs)
    rw [g3 rfl] at this
    cases this
  constructor
  · cases e : analyzeStats posId rows with
    | none => rfl
    | some v => rw [e] at hn; exact absurd rfl hn
  · unfold merged
    rw [List.filter_cons_of_neg (by simpa using hn)]
    rfl

/-- **C86** (finding) if the errors of each submove are all the same, for example if there is one row for each submove, then the only level
of the summary is 1, said to be 63 % of the targets, although all of them are within. -/
theorem C86_one_level (tag : Tag) (rows : List Row) (htag : tag ≠ .accepted) (h : ∀ r ∈ rows, ∀ r' ∈ rows, r.submove = r'.submove → err tag r = err tag r') :
    ∃ l, identify tag defaultSigmas rows = .ok l ∧ ∀ m ∈ l, m.2.1 = 1 := by
  have ht : ∀ r, Takes tag r := fun r e => absurd e htag
  have hc : Covered tag rows := fun r hr => ⟨r, hr, rfl, ht r⟩
  obtain ⟨l, h1, h2, h3⟩ := C86_ceiling tag defaultSigmas rows hc
  refine ⟨l, h1, ?_⟩
  rintro ⟨r, s, q⟩ hm
  obtain ⟨-, -, g⟩ := h3 r s q hm
  obtain ⟨g1, g2⟩ := g (ht r)
  have hr : r ∈ rows := by rw [← h2]; exact List.mem_map.2 ⟨_, hm, rfl⟩
  have hw : Within tag rows r 1 := by
    have hne : chosen tag r.submove rows ≠ [] := List.ne_nil_of_mem (List.mem_filter.2 ⟨hr, by simpa using ht r⟩)
    rw [within_iff hr (ht r)]
    obtain ⟨s, s1, s2, u, v, s3, s4, e⟩ := (cut_spec hne 1).2
    have hx : ∀ x ∈ s, x = err tag r := by
      intro x hx
      obtain ⟨r', hr', rfl⟩ := List.mem_map.1 (s1.mem_iff.1 hx)
      obtain ⟨k1, k2⟩ := List.mem_filter.1 hr'
      rw [decide_eq_true_iff] at k2
      exact h r' k1 r hr k2.1
    rw [e, hx u (List.mem_of_getElem? s3), hx v (List.mem_of_getElem? s4)]
    linarith
  have hle := g2 1 (by simp [defaultSigmas]) hw
  show s = 1
  rcases g1 with e | ⟨e, -⟩
  · subst e; exact absurd hle (by decide)
  · unfold defaultSigmas at e
    have : ∀ t ∈ ([1, 2, 3, 4, 5, ⊤] : List (WithTop ℕ)), t ≤ 1 → t = 1 := by decide
    exact this s e hle

/-- **C86** (finding) the number of targets reported with the statistics of accepted targets includes those that were not accepted. -/
theorem C86_meta_rejected : ∃ rows : List Row, ∃ n k es, metadata (merged [(0, rows)]) = .ok (n, k) ∧ binned .accepted [(0, rows)] = .ok es ∧
    ∀ e ∈ es, e.nTargets < n := by
  let r1 : Row := ⟨0, 0, 1, 1, 0, 0, 0, 0, true⟩
  let r2 : Row := ⟨0, 0, 1, 1, 0, 0, 0, 0, false⟩
  have hkeep : Covered .accepted [r1, r2] := by
    intro r hr
    refine ⟨r1, by simp, ?_, fun _ => rfl⟩
    rcases List.mem_cons.1 hr with rfl | hr
    · rfl
    · rw [List.mem_singleton] at hr; subst hr; rfl
  have hm : merged [(0, [r1, r2])] = [r1, r2] := by
    unfold merged
    rw [List.filter_cons_of_pos (by exact (kept_iff 0 _).2 ⟨by simp, hkeep⟩)]
    rfl
  obtain ⟨l, es, h1, h2, -, h4, h5⟩ := C86_summary .accepted defaultSigmas [r1, r2] hkeep
  obtain ⟨⟨n, k⟩, hmeta⟩ := (C86_merged [(0, [r1, r2])]).2.2 (by rw [hm]; simp)
  refine ⟨[r1, r2], n, k, es, hmeta, ?_, ?_⟩
  · unfold binned
    rw [hm, h1]
    exact h2
  · intro e he
    rw [hm] at hmeta
    obtain ⟨s, ⟨⟨r, hr, hs⟩, -⟩, hn, -⟩ := C86_metadata _ _ _ hmeta
    have hs0 : s = 0 := by
      rw [← hs]
      rcases List.mem_cons.1 hr with rfl | hr
      · rfl
      · rw [List.mem_singleton] at hr; subst hr; rfl
    have hn2 : n = 2 := by rw [hn, hs0]; rfl
    obtain ⟨-, c, g1, g2, -⟩ := h5 e he
    obtain ⟨⟨r', hr', hsm⟩, -⟩ := (h4 e.submove e.sigma).1 ⟨e, he, rfl, rfl⟩
    have hsm0 : e.submove = 0 := by
      rw [← hsm]
      rcases List.mem_cons.1 hr' with rfl | hr'
      · rfl
      · rw [List.mem_singleton] at hr'; subst hr'; rfl
    have hch : chosen .accepted 0 [r1, r2] = [r1] := by
      unfold chosen
      rw [List.filter_cons_of_pos (by simp [r1, Takes]), List.filter_cons_of_neg (by simp [r2, Takes])]
      rfl
    rw [g2, hsm0, hch, hn2]
    have := List.length_filter_le (fun x => decide (x ≤ c)) ([r1].map (err .accepted))
    simp at this ⊢
    omega

/-- Three rows of one submove, of which two are accepted. -/
example : Covered .accepted [⟨0, 0, 1, 1, 1, 2, 0, 0, true⟩, ⟨0, 0, 1, 1, 1, 3, 0, 0, false⟩, ⟨1, 0, 1, 1, 1, 4, 0, 0, true⟩] := by
  intro r hr
  refine ⟨⟨0, 0, 1, 1, 1, 2, 0, 0, true⟩, by simp, ?_, fun _ => rfl⟩
  simp only [List.mem_cons, List.not_mem_nil, or_false] at hr
  rcases hr with rfl | rfl | rfl <;> rfl

end Verif.Props
