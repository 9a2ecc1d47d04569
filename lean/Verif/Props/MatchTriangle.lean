import Verif.Props.Match

namespace Verif.Props
open Verif.Py Verif.Model.Match Verif.Lemmas

namespace Tri

/-- Vertex pairs of a triangle pair. -/
def Pairs {n m : ℕ} (t : Pair n m) (i : Fin n) (j : Fin m) : Prop :=
  (i = t.1.1 ∧ j = t.2.1.1) ∨ (i = t.1.2.1 ∧ j = t.2.1.2.1) ∨ (i = t.1.2.2 ∧ j = t.2.1.2.2)

/-- The vertices of the first triangle are distinct. -/
def Distinct {n : ℕ} (t : Tri n) : Prop := t.1 ≠ t.2.1 ∧ t.1 ≠ t.2.2 ∧ t.2.1 ≠ t.2.2

theorem set3_of_not {n : ℕ} {α : Type*} (f : Fin n → α) (k : Tri n) (v : α × α × α) (i : Fin n)
    (h : i ≠ k.1 ∧ i ≠ k.2.1 ∧ i ≠ k.2.2) : set3 f k v i = f i := by
  simp [set3, Function.update, h.1, h.2.1, h.2.2]

theorem set3_vals {n : ℕ} {α : Type*} (f : Fin n → α) (k : Tri n) (v : α × α × α) (hd : Distinct k) :
    set3 f k v k.1 = v.1 ∧ set3 f k v k.2.1 = v.2.1 ∧ set3 f k v k.2.2 = v.2.2 := by
  obtain ⟨h1, h2, h3⟩ := hd
  refine ⟨?_, ?_, ?_⟩ <;> simp [set3, Function.update, h1, h2, h3]

theorem conflict_iff {n m : ℕ} (idx : Fin n → Option (Fin m)) (t : Pair n m) :
    conflict idx t.1 t.2.1 = true ↔ ∃ i j j', Pairs t i j ∧ idx i = some j' ∧ j' ≠ j := by
  have key : ∀ i (j : Fin m), ((idx i).isSome && decide (idx i ≠ some j)) = true ↔ ∃ j', idx i = some j' ∧ j' ≠ j := by
    intro i j
    cases idx i <;> simp
  unfold conflict
  simp only [Bool.or_eq_true, key]
  unfold Pairs
  constructor
  · rintro ((⟨j', h⟩ | ⟨j', h⟩) | ⟨j', h⟩)
    · exact ⟨_, _, j', Or.inl ⟨rfl, rfl⟩, h⟩
    · exact ⟨_, _, j', Or.inr (Or.inl ⟨rfl, rfl⟩), h⟩
    · exact ⟨_, _, j', Or.inr (Or.inr ⟨rfl, rfl⟩), h⟩
  · rintro ⟨i, j, j', ⟨rfl, rfl⟩ | ⟨rfl, rfl⟩ | ⟨rfl, rfl⟩, h⟩
    · exact Or.inl (Or.inl ⟨j', h⟩)
    · exact Or.inl (Or.inr ⟨j', h⟩)
    · exact Or.inr ⟨j', h⟩

/-- The assignment after accepting a pair. -/
theorem accept_spec {n m : ℕ} (idx : Fin n → Option (Fin m)) (t : Pair n m) (hd : Distinct t.1)
    (hc : ¬ conflict idx t.1 t.2.1 = true) :
    let idx' := set3 idx t.1 (some t.2.1.1, some t.2.1.2.1, some t.2.1.2.2)
    (∀ i j, Pairs t i j → idx' i = some j) ∧
    (∀ i j, idx i = some j → idx' i = some j) ∧
    (∀ i j, idx' i = some j → Pairs t i j ∨ idx i = some j) := by
  intro idx'
  obtain ⟨v1, v2, v3⟩ := set3_vals idx t.1 (some t.2.1.1, some t.2.1.2.1, some t.2.1.2.2) hd
  have h1 : ∀ i j, Pairs t i j → idx' i = some j := by
    rintro i j (⟨rfl, rfl⟩ | ⟨rfl, rfl⟩ | ⟨rfl, rfl⟩)
    · exact v1
    · exact v2
    · exact v3
  have hcase : ∀ i, (∃ j, Pairs t i j) ∨ idx' i = idx i := by
    intro i
    by_cases a1 : i = t.1.1
    · exact Or.inl ⟨_, Or.inl ⟨a1, rfl⟩⟩
    by_cases a2 : i = t.1.2.1
    · exact Or.inl ⟨_, Or.inr (Or.inl ⟨a2, rfl⟩)⟩
    by_cases a3 : i = t.1.2.2
    · exact Or.inl ⟨_, Or.inr (Or.inr ⟨a3, rfl⟩)⟩
    exact Or.inr (set3_of_not _ _ _ _ ⟨a1, a2, a3⟩)
  refine ⟨h1, ?_, ?_⟩
  · intro i j hij
    rcases hcase i with ⟨j0, h⟩ | h
    · rw [h1 i j0 h]
      by_contra hne
      apply hc
      rw [conflict_iff]
      exact ⟨i, j0, j, h, hij, fun e => hne (by rw [e])⟩
    · rw [h]; exact hij
  · intro i j hij
    rcases hcase i with ⟨j0, h⟩ | h
    · rw [h1 i j0 h] at hij
      injection hij with hij
      left; rw [← hij]; exact h
    · right; rw [← h]; exact hij

/-- The loop: assignments are never changed, and each comes from a triangle pair all of whose
vertices are assigned accordingly. -/
theorem loop_spec {n m : ℕ} (ps : List (Pair n m)) (hd : ∀ t ∈ ps, Distinct t.1) (idx : Fin n → Option (Fin m))
    (d : Fin n → ℝ) :
    let r := pairLoop ps idx d
    (∀ i j, idx i = some j → r.1 i = some j) ∧
    (∀ i j, r.1 i = some j → (idx i = some j ∨ ∃ t ∈ ps, Pairs t i j ∧ ∀ i' j', Pairs t i' j' → r.1 i' = some j')) ∧
    (∀ i, r.2 i = d i ∨ ∃ t ∈ ps, ∃ j, Pairs t i j ∧ r.1 i = some j ∧ r.2 i = t.2.2) ∧
    (∀ i j, r.1 i = some j → idx i = none → ∃ t ∈ ps, Pairs t i j ∧ r.2 i = t.2.2) ∧
    (∀ t ∈ ps, (∀ i' j', Pairs t i' j' → r.1 i' = some j') ∨ (∃ i j j', Pairs t i j ∧ r.1 i = some j' ∧ j' ≠ j) ∨
      ∀ i, (r.1 i).isSome) := by
  induction ps generalizing idx d with
  | nil =>
    simp only [pairLoop]
    refine ⟨fun _ _ h => h, fun _ _ h => Or.inl h, fun _ => Or.inl trivial, ?_, by simp⟩
    intro i j h h'; rw [h'] at h; cases h
  | cons t ps ih =>
    have hdt := hd t (by simp)
    have hdp : ∀ t ∈ ps, Distinct t.1 := fun u hu => hd u (by simp [hu])
    obtain ⟨k1, k2, dist⟩ := t
    simp only [pairLoop]
    by_cases hc : conflict idx k1 k2 = true
    · rw [if_pos hc]
      obtain ⟨a1, a2, a3, a4, a5⟩ := ih hdp idx d
      refine ⟨a1, ?_, ?_, ?_, ?_⟩
      · intro i j h
        rcases a2 i j h with h | ⟨t, ht, h⟩
        · exact Or.inl h
        · exact Or.inr ⟨t, by simp [ht], h⟩
      · intro i
        rcases a3 i with h | ⟨t, ht, h⟩
        · exact Or.inl h
        · exact Or.inr ⟨t, by simp [ht], h⟩
      · intro i j h h'
        obtain ⟨t, ht, h⟩ := a4 i j h h'
        exact ⟨t, by simp [ht], h⟩
      · intro t ht
        rcases List.mem_cons.1 ht with rfl | ht
        · right; left
          obtain ⟨i, j, j', h1, h2, h3⟩ := (conflict_iff idx (k1, k2, dist)).1 hc
          exact ⟨i, j, j', h1, a1 i j' h2, h3⟩
        · exact a5 t ht
    · rw [if_neg hc]
      obtain ⟨b1, b2, b3⟩ := accept_spec idx (k1, k2, dist) hdt hc
      dsimp only at b1 b2 b3
      set idx' := set3 idx k1 (some k2.1, some k2.2.1, some k2.2.2) with hidx'
      have hdist : ∀ i, set3 d k1 (dist, dist, dist) i = d i ∨
          (∃ j, Pairs (k1, k2, dist) i j) ∧ set3 d k1 (dist, dist, dist) i = dist := by
        intro i
        obtain ⟨v1, v2, v3⟩ := set3_vals d k1 (dist, dist, dist) hdt
        by_cases a1 : i = k1.1
        · right; exact ⟨⟨_, Or.inl ⟨a1, rfl⟩⟩, by rw [a1, v1]⟩
        by_cases a2 : i = k1.2.1
        · right; exact ⟨⟨_, Or.inr (Or.inl ⟨a2, rfl⟩)⟩, by rw [a2, v2]⟩
        by_cases a3 : i = k1.2.2
        · right; exact ⟨⟨_, Or.inr (Or.inr ⟨a3, rfl⟩)⟩, by rw [a3, v3]⟩
        exact Or.inl (set3_of_not _ _ _ _ ⟨a1, a2, a3⟩)
      have hdist' : ∀ i j, Pairs (k1, k2, dist) i j → set3 d k1 (dist, dist, dist) i = dist := by
        intro i j h
        obtain ⟨v1, v2, v3⟩ := set3_vals d k1 (dist, dist, dist) hdt
        rcases h with ⟨rfl, -⟩ | ⟨rfl, -⟩ | ⟨rfl, -⟩
        · exact v1
        · exact v2
        · exact v3
      by_cases hall : ∀ i, (idx' i).isSome = true
      · rw [if_pos hall]
        refine ⟨b2, ?_, ?_, ?_, ?_⟩
        · intro i j h
          rcases b3 i j h with h | h
          · exact Or.inr ⟨(k1, k2, dist), by simp, h, b1⟩
          · exact Or.inl h
        · intro i
          rcases hdist i with h | ⟨⟨j, h⟩, h'⟩
          · exact Or.inl h
          · exact Or.inr ⟨(k1, k2, dist), by simp, j, h, b1 i j h, h'⟩
        · intro i j h h'
          rcases b3 i j h with h | h
          · exact ⟨(k1, k2, dist), by simp, h, hdist' i j h⟩
          · rw [h'] at h; cases h
        · intro t _; right; right; exact hall
      · rw [if_neg hall]
        obtain ⟨a1, a2, a3, a4, a5⟩ := ih hdp idx' (set3 d k1 (dist, dist, dist))
        refine ⟨fun i j h => a1 i j (b2 i j h), ?_, ?_, ?_, ?_⟩
        · intro i j h
          rcases a2 i j h with h | ⟨t, ht, h⟩
          · rcases b3 i j h with h | h
            · exact Or.inr ⟨(k1, k2, dist), by simp, h, fun i' j' h' => a1 i' j' (b1 i' j' h')⟩
            · exact Or.inl h
          · exact Or.inr ⟨t, by simp [ht], h⟩
        · intro i
          rcases a3 i with h | ⟨t, ht, h⟩
          · rcases hdist i with h' | ⟨⟨j, h'⟩, h''⟩
            · exact Or.inl (h.trans h')
            · exact Or.inr ⟨(k1, k2, dist), by simp, j, h', a1 i j (b1 i j h'), h.trans h''⟩
          · exact Or.inr ⟨t, by simp [ht], h⟩
        · intro i j h h'
          cases hi : idx' i with
          | none =>
            obtain ⟨t, ht, h⟩ := a4 i j h hi
            exact ⟨t, by simp [ht], h⟩
          | some j0 =>
            have e : j0 = j := by have := a1 i j0 hi; rw [h] at this; injection this with this; exact this.symm
            subst e
            rcases b3 i j0 hi with hp | hp
            · rcases a3 i with h3 | ⟨t, ht, j1, h3, h4, h5⟩
              · exact ⟨(k1, k2, dist), by simp, hp, h3.trans (hdist' i j0 hp)⟩
              · have e : j1 = j0 := by rw [h] at h4; injection h4 with h4; exact h4.symm
                subst e
                exact ⟨t, by simp [ht], h3, h5⟩
            · rw [h'] at hp; cases hp
        · intro t ht
          rcases List.mem_cons.1 ht with rfl | ht
          · left; exact fun i' j' h' => a1 i' j' (b1 i' j' h')
          · exact a5 t ht

/-- The final loop keeps an assignment iff nobody else has it. -/
theorem dropDup_spec {n m : ℕ} (idx : Fin n → Option (Fin m)) (i : Fin n) (j : Fin m) :
    dropDup idx i = some j ↔ idx i = some j ∧ ∀ i', idx i' = some j → i' = i := by
  have hstep : ∀ (f : Fin n → Option (Fin m)) (v : Fin m), ∀ i j,
      (if ((List.finRange n).filter fun i => f i = some v).length > 1
        then fun i => if f i = some v then none else f i else f) i = some j ↔
      f i = some j ∧ (j = v → ∀ i', f i' = some v → i' = i) := by
    intro f v i j
    have hmem : ∀ a, a ∈ (List.finRange n).filter (fun i => f i = some v) ↔ f a = some v := by intro a; simp
    have hnd : ((List.finRange n).filter (fun i => f i = some v)).Nodup := (List.nodup_finRange n).filter _
    split_ifs with hl
    · beta_reduce
      split_ifs with hv
      · simp only [false_iff, not_and, hv, Option.some.injEq]
        rintro rfl
        intro h
        have h := h rfl
        match hL : (List.finRange n).filter (fun i => f i = some v), hl with
        | a :: b :: t, _ =>
          have ha := h a ((hmem a).1 (by rw [hL]; simp))
          have hb := h b ((hmem b).1 (by rw [hL]; simp))
          rw [hL, List.nodup_cons] at hnd
          apply hnd.1
          rw [ha, ← hb]; simp
      · constructor
        · intro h
          refine ⟨h, ?_⟩
          rintro rfl
          exact absurd h hv
        · exact fun h => h.1
    · constructor
      · intro h
        refine ⟨h, ?_⟩
        rintro rfl i' hi'
        have h1 := (hmem i).2 h
        have h2 := (hmem i').2 hi'
        match hL : (List.finRange n).filter (fun i => f i = some j), hl with
        | [], _ => rw [hL] at h1; cases h1
        | [a], _ => rw [hL] at h1 h2; simp at h1 h2; rw [h1, h2]
        | a :: b :: t, hl => simp at hl
      · exact fun h => h.1
  have hfold : ∀ (u : List (Fin m)) (_ : u.Nodup) (f : Fin n → Option (Fin m)) i j,
      (u.foldl (fun idx j => if ((List.finRange n).filter fun i => idx i = some j).length > 1
        then fun i => if idx i = some j then none else idx i else idx) f) i = some j ↔
      f i = some j ∧ (j ∈ u → ∀ i', f i' = some j → i' = i) := by
    intro u
    induction u with
    | nil => simp
    | cons v u ih =>
      intro hnd f i j
      rw [List.nodup_cons] at hnd
      rw [List.foldl_cons, ih hnd.2, hstep]
      constructor
      · rintro ⟨⟨h1, h2⟩, h3⟩
        refine ⟨h1, ?_⟩
        intro hj i' hi'
        rcases List.mem_cons.1 hj with rfl | hj
        · exact h2 rfl i' hi'
        · refine h3 hj i' ((hstep f v i' j).2 ⟨hi', ?_⟩)
          exact fun e => absurd (e ▸ hj) hnd.1
      · rintro ⟨h1, h2⟩
        refine ⟨⟨h1, ?_⟩, ?_⟩
        · rintro rfl; exact h2 (by simp)
        · intro hj i' hi'
          exact h2 (by simp [hj]) i' ((hstep f v i' j).1 hi').1
  unfold dropDup
  rw [hfold _ ((List.nodup_finRange m).filter _)]
  constructor
  · rintro ⟨h1, h2⟩
    exact ⟨h1, h2 (by simp only [List.mem_filter, List.mem_finRange, true_and, decide_eq_true_eq]; exact ⟨i, h1⟩)⟩
  · rintro ⟨h1, h2⟩
    exact ⟨h1, fun _ => h2⟩

/-! Triples of a list. -/

theorem mem_pairs {α : Type*} (l : List α) (x : α × α) : x ∈ pairs l ↔ [x.1, x.2].Sublist l := by
  induction l with
  | nil => simp [pairs]
  | cons a l ih =>
    rw [pairs, List.mem_append, ih, List.mem_map]
    constructor
    · rintro (⟨b, hb, rfl⟩ | h)
      · exact List.Sublist.cons_cons a (List.singleton_sublist.2 hb)
      · exact List.Sublist.cons a h
    · intro h
      rcases h with h | h
      · right; assumption
      · left
        rename_i h
        exact ⟨x.2, List.singleton_sublist.1 h, rfl⟩

theorem mem_triples {α : Type*} (l : List α) (x : α × α × α) : x ∈ triples l ↔ [x.1, x.2.1, x.2.2].Sublist l := by
  induction l with
  | nil => simp [triples]
  | cons a l ih =>
    rw [triples, List.mem_append, ih, List.mem_map]
    constructor
    · rintro (⟨b, hb, rfl⟩ | h)
      · exact List.Sublist.cons_cons a ((mem_pairs _ _).1 hb)
      · exact List.Sublist.cons a h
    · intro h
      rcases h with h | h
      · right; assumption
      · left
        rename_i h
        exact ⟨(x.2.1, x.2.2), (mem_pairs _ _).2 h, rfl⟩

theorem triples_distinct {n : ℕ} {l : List (Fin n)} (hl : l.Nodup) {t : Tri n} (h : t ∈ triples l) : Distinct t := by
  have := ((mem_triples l t).1 h).nodup hl
  simp at this
  exact ⟨this.1.1, this.1.2, this.2⟩

theorem pairs_map {α β : Type*} (f : α → β) (l : List α) :
    pairs (l.map f) = (pairs l).map fun x => (f x.1, f x.2) := by
  induction l with
  | nil => rfl
  | cons a l ih => simp [pairs, ih]

theorem triples_map {α β : Type*} (f : α → β) (l : List α) :
    triples (l.map f) = (triples l).map fun x => (f x.1, f x.2.1, f x.2.2) := by
  induction l with
  | nil => rfl
  | cons a l ih => simp [triples, ih, pairs_map]

theorem exists_triple {α : Type*} (l : List α) (h : 3 ≤ l.length) (a : α) (ha : a ∈ l) :
    ∃ t ∈ triples l, a = t.1 ∨ a = t.2.1 ∨ a = t.2.2 := by
  obtain ⟨i, hi, rfl⟩ := List.getElem_of_mem ha
  have key : ∀ p q r : ℕ, p < q → q < r → (hr : r < l.length) → ∀ (hp : p < l.length) (hq : q < l.length),
      [l[p], l[q], l[r]].Sublist l := by
    intro p q r hpq hqr hr hp hq
    have : [l[p], l[q], l[r]] = [(⟨p, hp⟩ : Fin l.length), ⟨q, hq⟩, ⟨r, hr⟩].map l.get := rfl
    rw [this]
    refine List.map_getElem_sublist ?_
    simp only [List.pairwise_cons, List.mem_cons, forall_eq_or_imp, List.not_mem_nil, false_imp_iff, implies_true,
      and_true, List.Pairwise.nil, Fin.mk_lt_mk]
    omega
  have h3 : ∃ p q r, p < q ∧ q < r ∧ r < l.length ∧ (i = p ∨ i = q ∨ i = r) := by
    rcases Nat.lt_or_ge i 2 with h2 | h2
    · rcases Nat.lt_or_ge i 1 with h1 | h1
      · exact ⟨i, i + 1, i + 2, by omega, by omega, by omega, Or.inl rfl⟩
      · exact ⟨0, i, i + 1, by omega, by omega, by omega, Or.inr (Or.inl rfl)⟩
    · exact ⟨0, 1, i, by omega, by omega, hi, Or.inr (Or.inr rfl)⟩
  obtain ⟨p, q, r, h1, h2, h3, h4⟩ := h3
  refine ⟨(l[p], l[q], l[r]), (mem_triples _ _).2 (key p q r h1 h2 h3 (by omega) (by omega)), ?_⟩
  rcases h4 with rfl | rfl | rfl
  · exact Or.inl rfl
  · exact Or.inr (Or.inl rfl)
  · exact Or.inr (Or.inr rfl)

theorem rank_mem {n m : ℕ} (ks : List ℕ) (ps : List (Pair n m)) (t : Pair n m)
    (h : t ∈ ks.filterMap fun k => ps[k]?) : t ∈ ps := by
  obtain ⟨k, -, h⟩ := List.mem_filterMap.1 h
  exact List.mem_of_getElem? h

theorem rank_all {n m : ℕ} (ks : List ℕ) (ps : List (Pair n m)) (hk : ks.Perm (List.range ps.length))
    (t : Pair n m) : t ∈ (ks.filterMap fun k => ps[k]?) ↔ t ∈ ps := by
  refine ⟨rank_mem ks ps t, ?_⟩
  intro h
  obtain ⟨k, hk', h⟩ := List.getElem_of_mem h
  exact List.mem_filterMap.2 ⟨k, hk.mem_iff.2 (List.mem_range.2 hk'), by rw [List.getElem?_eq_getElem hk', h]⟩

end Tri
open Tri

/-- A correct nearest neighbour query over a list of descriptors. -/
def NearestTri (nearest : List (ℝ × ℝ × ℝ) → (ℝ × ℝ × ℝ) → ℕ) : Prop :=
  ∀ l v, l ≠ [] → ∃ x, l[nearest l v]? = some x ∧ ∀ y ∈ l, dist3 v x ≤ dist3 v y

/-- `ord` lists all indices by non-decreasing first coordinate. -/
def OrderedBy {n : ℕ} (xy : Fin n → ℝ × ℝ) (ord : List (Fin n)) : Prop :=
  ord.Perm (List.finRange n) ∧ ord.Pairwise fun i j => (xy i).1 ≤ (xy j).1

/-- The shape of a triangle of a catalogue. -/
noncomputable def shape {n : ℕ} (xy : Fin n → ℝ × ℝ) (t : Tri n) : ℝ × ℝ × ℝ :=
  descriptor (xy t.1) (xy t.2.1) (xy t.2.2)

/-- A triangle pair of the two catalogues: the second is the one most similar to the first
(vertices in the order of the first coordinate). -/
structure Similar {n m : ℕ} (xy1 : Fin n → ℝ × ℝ) (xy2 : Fin m → ℝ × ℝ) (t : Pair n m) : Prop where
  first : (xy1 t.1.1).1 ≤ (xy1 t.1.2.1).1 ∧ (xy1 t.1.2.1).1 ≤ (xy1 t.1.2.2).1
  second : (xy2 t.2.1.1).1 ≤ (xy2 t.2.1.2.1).1 ∧ (xy2 t.2.1.2.1).1 ≤ (xy2 t.2.1.2.2).1
  distinct : Distinct t.1 ∧ Distinct t.2.1
  dist : t.2.2 = dist3 (shape xy1 t.1) (shape xy2 t.2.1)
  closest : ∀ u : Tri m, (xy2 u.1).1 < (xy2 u.2.1).1 → (xy2 u.2.1).1 < (xy2 u.2.2).1 →
    t.2.2 ≤ dist3 (shape xy1 t.1) (shape xy2 u)

theorem triple_sorted {n : ℕ} {xy : Fin n → ℝ × ℝ} {ord : List (Fin n)} (h : OrderedBy xy ord) {t : Tri n}
    (ht : t ∈ triples ord) : (xy t.1).1 ≤ (xy t.2.1).1 ∧ (xy t.2.1).1 ≤ (xy t.2.2).1 := by
  have := h.2.sublist ((mem_triples ord t).1 ht)
  simp at this
  exact ⟨this.1.1, this.2⟩

theorem ordered_nodup {n : ℕ} {xy : Fin n → ℝ × ℝ} {ord : List (Fin n)} (h : OrderedBy xy ord) : ord.Nodup :=
  h.1.nodup_iff.2 (List.nodup_finRange n)

theorem strict_mem {n : ℕ} {xy : Fin n → ℝ × ℝ} {ord : List (Fin n)} (h : OrderedBy xy ord) {t : Tri n}
    (h1 : (xy t.1).1 < (xy t.2.1).1) (h2 : (xy t.2.1).1 < (xy t.2.2).1) : t ∈ triples ord := by
  rw [mem_triples]
  have hnd : [t.1, t.2.1, t.2.2].Nodup := by
    simp only [List.nodup_cons, List.mem_cons, List.not_mem_nil, or_false, not_or, List.nodup_nil, and_true,
      not_false_eq_true]
    refine ⟨⟨?_, ?_⟩, ?_⟩
    · intro e; rw [e] at h1; exact lt_irrefl _ h1
    · intro e; rw [e] at h1; exact lt_irrefl _ (h1.trans h2)
    · intro e; rw [e] at h2; exact lt_irrefl _ h2
  have hpw : [t.1, t.2.1, t.2.2].Pairwise fun i j => (xy i).1 ≤ (xy j).1 := by
    simp only [List.pairwise_cons, List.mem_cons, List.not_mem_nil, or_false, forall_eq_or_imp, forall_eq,
      List.Pairwise.nil, and_true, IsEmpty.forall_iff, implies_true]
    exact ⟨⟨h1.le, (h1.trans h2).le⟩, h2.le⟩
  have hsub : (ord.filter fun a => a ∈ [t.1, t.2.1, t.2.2]).Sublist ord := List.filter_sublist
  have hp : (ord.filter fun a => a ∈ [t.1, t.2.1, t.2.2]).Perm [t.1, t.2.1, t.2.2] := by
    refine (List.perm_ext_iff_of_nodup ((ordered_nodup h).filter _) hnd).2 ?_
    intro a
    rw [List.mem_filter]
    simp only [h.1.mem_iff, List.mem_finRange, true_and, decide_eq_true_eq]
  have := List.Perm.eq_of_pairwise (le := fun i j => (xy i).1 ≤ (xy j).1) ?_ (h.2.sublist hsub) hpw hp
  · rw [← this]; exact hsub
  · intro a b ha hb hab hba
    have ha' := hp.mem_iff.1 ha
    simp only [List.mem_cons, List.not_mem_nil, or_false] at ha' hb
    rcases ha' with rfl | rfl | rfl <;> rcases hb with rfl | rfl | rfl <;> first | rfl | (exfalso; linarith)

/-- What the triangle matching stage returns. -/
theorem matched_spec {n m : ℕ} {xy1 : Fin n → ℝ × ℝ} {xy2 : Fin m → ℝ × ℝ} {ord1 : List (Fin n)} {ord2 : List (Fin m)}
    {nearest : List (ℝ × ℝ × ℝ) → (ℝ × ℝ × ℝ) → ℕ} {ps : List (Pair n m)}
    (h : (triangles ord1 xy1).mapM (pairOf (triangles ord2 xy2) nearest) = .ok ps) :
    List.Forall₂ (fun t p => p.1 = t ∧ p.2.1 ∈ triples ord2 ∧ p.2.2 = dist3 (shape xy1 t) (shape xy2 p.2.1) ∧
      ((triangles ord2 xy2).map Prod.snd)[nearest ((triangles ord2 xy2).map Prod.snd) (shape xy1 t)]? = some (shape xy2 p.2.1))
      (triples ord1) ps := by
  have gen : ∀ (l : List (Tri n)) (ps : List (Pair n m)),
      (l.map fun t => (t, descriptor (xy1 t.1) (xy1 t.2.1) (xy1 t.2.2))).mapM (pairOf (triangles ord2 xy2) nearest) = .ok ps →
      List.Forall₂ (fun t p => p.1 = t ∧ p.2.1 ∈ triples ord2 ∧ p.2.2 = dist3 (shape xy1 t) (shape xy2 p.2.1) ∧
      ((triangles ord2 xy2).map Prod.snd)[nearest ((triangles ord2 xy2).map Prod.snd) (shape xy1 t)]? = some (shape xy2 p.2.1))
      l ps := by
    intro l
    induction l with
    | nil => intro ps h; injection h with h; subst h; exact .nil
    | cons t l ih =>
      intro ps h
      rw [List.map_cons, List.mapM_cons] at h
      obtain ⟨p, hp, h⟩ := bind_ok h
      obtain ⟨ps', hps, h⟩ := bind_ok h
      injection h with h
      subst h
      refine .cons ?_ (ih ps' hps)
      unfold pairOf at hp
      change (match (triangles ord2 xy2)[nearest ((triangles ord2 xy2).map Prod.snd) (shape xy1 t)]? with
        | some u => Except.ok (t, u.1, dist3 (shape xy1 t) u.2)
        | none => Except.error PyErr.indexError) = .ok p at hp
      cases hu : (triangles ord2 xy2)[nearest ((triangles ord2 xy2).map Prod.snd) (shape xy1 t)]? with
      | none => rw [hu] at hp; cases hp
      | some u =>
        rw [hu] at hp
        injection hp with hp
        subst hp
        have hmem := List.mem_of_getElem? hu
        unfold triangles at hmem
        obtain ⟨w, hw, e⟩ := List.mem_map.1 hmem
        have e1 : u.1 = w := by rw [← e]
        have e2 : u.2 = shape xy2 u.1 := by rw [← e]; rfl
        refine ⟨rfl, by rw [e1]; exact hw, by rw [← e2], ?_⟩
        rw [List.getElem?_map, hu]
        simp only [Option.map_some]
        rw [e2]
  exact gen _ _ h

/-- C31: every run that ends normally returns a one to one assignment.  It is obtained from an
assignment `full` by dropping every entry claimed twice; every assignment of `full` comes from
a pair of similar triangles of the two catalogues all of whose three vertices are assigned
accordingly, the distance reported is that of such a pair, and every pair not used contradicts
the assignment or came after everything was assigned. -/
theorem C31_consistent {n m : ℕ} {xy1 : Fin n → ℝ × ℝ} {xy2 : Fin m → ℝ × ℝ} {ord1 : List (Fin n)}
    {ord2 : List (Fin m)} (h1 : OrderedBy xy1 ord1) (h2 : OrderedBy xy2 ord2)
    {nearest : List (ℝ × ℝ × ℝ) → (ℝ × ℝ × ℝ) → ℕ} (hnear : NearestTri nearest)
    {rank : List ℝ → List ℕ} (hrank : Sorts rank)
    {idx : Fin n → Option (Fin m)} {d : Fin n → ℝ}
    (h : matchArbitrary ord1 ord2 nearest rank xy1 xy2 = .ok (idx, d)) :
    (∀ i i' j, idx i = some j → idx i' = some j → i = i') ∧
    ∃ full : Fin n → Option (Fin m),
      (∀ i j, idx i = some j ↔ full i = some j ∧ ∀ i', full i' = some j → i' = i) ∧
      (∀ i j, full i = some j → ∃ t : Pair n m, Similar xy1 xy2 t ∧ Pairs t i j ∧
        ∀ i' j', Pairs t i' j' → full i' = some j') ∧
      (∀ i j, full i = some j → ∃ t : Pair n m, Similar xy1 xy2 t ∧ Pairs t i j ∧ d i = t.2.2) ∧
      (∀ t : Tri n, (xy1 t.1).1 < (xy1 t.2.1).1 → (xy1 t.2.1).1 < (xy1 t.2.2).1 → ∃ p : Pair n m, p.1 = t ∧ Similar xy1 xy2 p ∧
        ((∀ i j, Pairs p i j → full i = some j) ∨ (∃ i j j', Pairs p i j ∧ full i = some j' ∧ j' ≠ j) ∨
          ∀ i, (full i).isSome)) := by
  unfold matchArbitrary at h
  obtain ⟨ps, hps, h⟩ := bind_ok h
  have hf := matched_spec hps
  set ranked := (rank (ps.map fun p => p.2.2)).filterMap fun k => ps[k]? with hranked
  injection h with h
  have hmem : ∀ p, p ∈ ranked ↔ p ∈ ps := by
    intro p
    refine rank_all _ _ ?_ p
    have := (hrank (ps.map fun p => p.2.2)).1
    rwa [List.length_map] at this
  have hprop : ∀ p ∈ ps, Similar xy1 xy2 p := by
    intro p hp
    obtain ⟨k, hk, rfl⟩ := List.getElem_of_mem hp
    have hk' : k < (triples ord1).length := by rw [hf.length_eq]; exact hk
    obtain ⟨e1, e2, e3, e4⟩ := (List.forall₂_iff_get.1 hf).2 k hk' hk
    simp only [List.get_eq_getElem] at e1 e2 e3 e4
    have ht1 : (ps[k]).1 ∈ triples ord1 := by rw [e1]; exact List.getElem_mem hk'
    rw [← e1] at e3 e4
    refine ⟨triple_sorted h1 ht1, triple_sorted h2 e2, ⟨triples_distinct (ordered_nodup h1) ht1,
      triples_distinct (ordered_nodup h2) e2⟩, e3, ?_⟩
    intro u hu1 hu2
    have hu := strict_mem h2 hu1 hu2
    have hne : (triangles ord2 xy2).map Prod.snd ≠ [] := by
      intro he
      rw [he] at e4
      simp at e4
    obtain ⟨x, hx, hmin⟩ := hnear _ (shape xy1 (ps[k]).1) hne
    rw [e4] at hx
    injection hx with hx
    rw [e3, hx]
    apply hmin
    unfold triangles
    rw [List.map_map, List.mem_map]
    exact ⟨u, hu, rfl⟩
  have hd : ∀ t ∈ ranked, Distinct t.1 := fun t ht => (hprop t ((hmem t).1 ht)).distinct.1
  obtain ⟨a1, a2, a3, a4, a5⟩ := loop_spec ranked hd (fun _ => none) (fun _ => 0)
  set r := pairLoop ranked (fun _ => none) (fun _ => 0) with hr
  have e1 : idx = dropDup r.1 := (congrArg Prod.fst h).symm
  have e2 : d = r.2 := (congrArg Prod.snd h).symm
  have hiff : ∀ i j, idx i = some j ↔ r.1 i = some j ∧ ∀ i', r.1 i' = some j → i' = i := by
    intro i j; rw [e1]; exact dropDup_spec r.1 i j
  refine ⟨?_, r.1, hiff, ?_, ?_, ?_⟩
  · intro i i' j h1 h2
    exact (((hiff i j).1 h1).2 i' ((hiff i' j).1 h2).1).symm
  · intro i j hij
    rcases a2 i j hij with h | ⟨t, ht, h1, h2⟩
    · cases h
    · have := hprop t ((hmem t).1 ht)
      exact ⟨t, this, h1, h2⟩
  · intro i j hij
    obtain ⟨t, ht, h1, h2⟩ := a4 i j hij rfl
    exact ⟨t, hprop t ((hmem t).1 ht), h1, by rw [e2]; exact h2⟩
  · intro t ht1 ht2
    obtain ⟨k, hk, rfl⟩ := List.getElem_of_mem (strict_mem h1 ht1 ht2)
    have hk' : k < ps.length := by rw [← hf.length_eq]; exact hk
    obtain ⟨e1, -⟩ := (List.forall₂_iff_get.1 hf).2 k hk hk'
    simp only [List.get_eq_getElem] at e1
    have hp : ps[k] ∈ ps := List.getElem_mem hk'
    exact ⟨ps[k], e1, hprop _ hp, a5 _ ((hmem _).2 hp)⟩

theorem triples_nil {α : Type*} (l : List α) : triples l = [] ↔ l.length < 3 := by
  match l with
  | [] => simp [triples]
  | [a] => simp [triples, pairs]
  | [a, b] => simp [triples, pairs]
  | a :: b :: c :: t => simp [triples, pairs]

/-- C31: the matching fails (IndexError) exactly when the first catalogue has three or more
entries and the second has fewer. -/
theorem C31_error {n m : ℕ} {xy1 : Fin n → ℝ × ℝ} {xy2 : Fin m → ℝ × ℝ} {ord1 : List (Fin n)}
    {ord2 : List (Fin m)} (h1 : OrderedBy xy1 ord1) (h2 : OrderedBy xy2 ord2)
    {nearest : List (ℝ × ℝ × ℝ) → (ℝ × ℝ × ℝ) → ℕ} (hnear : NearestTri nearest) (rank : List ℝ → List ℕ) :
    (3 ≤ n ∧ m < 3 → matchArbitrary ord1 ord2 nearest rank xy1 xy2 = .error .indexError) ∧
    (n < 3 ∨ 3 ≤ m → ∃ r, matchArbitrary ord1 ord2 nearest rank xy1 xy2 = .ok r) := by
  have l1 : ord1.length = n := by rw [h1.1.length_eq, List.length_finRange]
  have l2 : ord2.length = m := by rw [h2.1.length_eq, List.length_finRange]
  constructor
  · rintro ⟨hn, hm⟩
    have e2 : triangles ord2 xy2 = [] := by
      unfold triangles; rw [(triples_nil ord2).2 (by omega)]; rfl
    have e1 : triples ord1 ≠ [] := by rw [Ne, triples_nil]; omega
    obtain ⟨t, ts, e1⟩ := List.exists_cons_of_ne_nil e1
    unfold matchArbitrary
    simp only [e2]
    unfold triangles
    rw [e1, List.map_cons, List.mapM_cons]
    rfl
  · intro h
    have key : ∀ l : List (Tri n × ℝ × ℝ × ℝ), (l = [] ∨ triangles ord2 xy2 ≠ []) → ∃ ps, l.mapM (pairOf (triangles ord2 xy2) nearest) = .ok ps := by
      intro l
      induction l with
      | nil => intro _; exact ⟨[], rfl⟩
      | cons t l ih =>
        intro hne
        have hne : triangles ord2 xy2 ≠ [] := by
          rcases hne with h | h
          · cases h
          · exact h
        obtain ⟨ps, hps⟩ := ih (Or.inr hne)
        obtain ⟨x, hx, -⟩ := hnear ((triangles ord2 xy2).map Prod.snd) t.2 (by simpa using hne)
        rw [List.getElem?_map] at hx
        cases hu : (triangles ord2 xy2)[nearest ((triangles ord2 xy2).map Prod.snd) t.2]? with
        | none => rw [hu] at hx; cases hx
        | some u =>
          rw [List.mapM_cons, hps, pairOf, hu]
          exact ⟨_, rfl⟩
    obtain ⟨ps, hps⟩ := key (triangles ord1 xy1) (by
      rcases h with h | h
      · left; unfold triangles; rw [(triples_nil ord1).2 (by omega)]; rfl
      · right; unfold triangles; rw [Ne, List.map_eq_nil_iff, triples_nil]; omega)
    unfold matchArbitrary
    dsimp only
    rw [hps]
    exact ⟨_, rfl⟩

/-- The descriptors do not change under translation and dilatation. -/
theorem shape_invariant (s tx ty : ℝ) (hs : 0 < s) (a b c : ℝ × ℝ) :
    descriptor (s * a.1 + tx, s * a.2 + ty) (s * b.1 + tx, s * b.2 + ty) (s * c.1 + tx, s * c.2 + ty) =
      descriptor a b c := by
  have hl : ∀ p q : ℝ × ℝ, (s * p.1 + tx - (s * q.1 + tx)) ^ 2 + (s * p.2 + ty - (s * q.2 + ty)) ^ 2 =
      s ^ 2 * ((p.1 - q.1) ^ 2 + (p.2 - q.2) ^ 2) := by intro p q; ring
  have hs2 : 0 < s ^ 2 := by positivity
  unfold descriptor
  simp only [hl]
  refine Prod.ext ?_ (Prod.ext ?_ ?_)
  · simp only
    rw [← mul_max_of_nonneg _ _ hs2.le, ← mul_max_of_nonneg _ _ hs2.le, ← mul_min_of_nonneg _ _ hs2.le,
      ← mul_min_of_nonneg _ _ hs2.le, mul_div_mul_left _ _ hs2.ne']
  · simp only
    have e1 : (s * b.1 + tx - (s * a.1 + tx)) * (s * c.1 + tx - (s * a.1 + tx)) +
        (s * b.2 + ty - (s * a.2 + ty)) * (s * c.2 + ty - (s * a.2 + ty)) =
        s ^ 2 * ((b.1 - a.1) * (c.1 - a.1) + (b.2 - a.2) * (c.2 - a.2)) := by ring
    have e2 : s ^ 2 * ((b.1 - a.1) ^ 2 + (b.2 - a.2) ^ 2) * (s ^ 2 * ((c.1 - a.1) ^ 2 + (c.2 - a.2) ^ 2)) =
        (s ^ 2) ^ 2 * (((b.1 - a.1) ^ 2 + (b.2 - a.2) ^ 2) * ((c.1 - a.1) ^ 2 + (c.2 - a.2) ^ 2)) := by ring
    rw [e1, e2, Real.sqrt_mul (by positivity), Real.sqrt_sq hs2.le, mul_div_mul_left _ _ hs2.ne']
  · simp only
    have e1 : s * b.1 + tx - (s * a.1 + tx) = s * (b.1 - a.1) := by ring
    rw [e1, Real.sqrt_mul hs2.le, Real.sqrt_sq hs.le, mul_div_mul_left _ _ hs.ne']

theorem dist3_zero {p q : ℝ × ℝ × ℝ} (h : dist3 p q ≤ 0) : p = q := by
  unfold dist3 at h
  have h0 := Real.sqrt_eq_zero'.1 (le_antisymm h (Real.sqrt_nonneg _))
  have a := sq_nonneg (p.1 - q.1)
  have b := sq_nonneg (p.2.1 - q.2.1)
  have c := sq_nonneg (p.2.2 - q.2.2)
  refine Prod.ext ?_ (Prod.ext ?_ ?_)
  · exact sub_eq_zero.1 (pow_eq_zero_iff (two_ne_zero) |>.1 (by linarith))
  · exact sub_eq_zero.1 (pow_eq_zero_iff (two_ne_zero) |>.1 (by linarith))
  · exact sub_eq_zero.1 (pow_eq_zero_iff (two_ne_zero) |>.1 (by linarith))

theorem dist3_self (p : ℝ × ℝ × ℝ) : dist3 p p = 0 := by simp [dist3]

/-- C31: exact recovery.  If the second catalogue is the first one, translated, dilated and
put in any order, has at least three entries with distinct first coordinates, and no two of
its triangles have the same shape, then every entry is matched to its counterpart, with
distance 0. -/
theorem C31_exact {n m : ℕ} (σ : Fin n ≃ Fin m) (hn : 3 ≤ n) (xy1 : Fin n → ℝ × ℝ) (xy2 : Fin m → ℝ × ℝ)
    (s tx ty : ℝ) (hs : 0 < s) (hxy : ∀ i, xy2 (σ i) = (s * (xy1 i).1 + tx, s * (xy1 i).2 + ty))
    (hx : ∀ i j, (xy1 i).1 = (xy1 j).1 → i = j)
    (hgen : ∀ t u : Tri m, (xy2 t.1).1 < (xy2 t.2.1).1 → (xy2 t.2.1).1 < (xy2 t.2.2).1 →
      (xy2 u.1).1 < (xy2 u.2.1).1 → (xy2 u.2.1).1 < (xy2 u.2.2).1 → shape xy2 t = shape xy2 u → t = u)
    {ord1 : List (Fin n)} {ord2 : List (Fin m)} (h1 : OrderedBy xy1 ord1) (h2 : OrderedBy xy2 ord2)
    {nearest : List (ℝ × ℝ × ℝ) → (ℝ × ℝ × ℝ) → ℕ} (hnear : NearestTri nearest)
    {rank : List ℝ → List ℕ} (hrank : Sorts rank) :
    matchArbitrary ord1 ord2 nearest rank xy1 xy2 = .ok (fun i => some (σ i), fun _ => 0) := by
  have hm : m = n := by simpa using (Fintype.card_congr σ).symm
  have hx2 : ∀ i j, (xy2 i).1 = (xy2 j).1 → i = j := by
    intro i j h
    obtain ⟨i, rfl⟩ := σ.surjective i
    obtain ⟨j, rfl⟩ := σ.surjective j
    rw [hxy, hxy] at h
    simp only at h
    have : (xy1 i).1 = (xy1 j).1 := by
      have h' : s * (xy1 i).1 = s * (xy1 j).1 := by linarith
      exact mul_left_cancel₀ hs.ne' h'
    rw [hx i j this]
  obtain ⟨r, hr⟩ := (C31_error h1 h2 hnear rank).2 (Or.inr (by omega))
  obtain ⟨idx, d⟩ := r
  obtain ⟨-, full, c1, c2, c3, c4⟩ := C31_consistent h1 h2 hnear hrank hr
  -- every similar pair is a triangle with its image
  have himg : ∀ (t : Pair n m), Similar xy1 xy2 t → t.2.2 = 0 ∧ ∀ i j, Pairs t i j → j = σ i := by
    intro t ht
    have hlt1 : ∀ a b : Fin n, a ≠ b → (xy1 a).1 ≤ (xy1 b).1 → (xy2 (σ a)).1 < (xy2 (σ b)).1 := by
      intro a b hab hle
      have hlt : (xy1 a).1 < (xy1 b).1 := lt_of_le_of_ne hle (fun e => hab (hx a b e))
      rw [hxy, hxy]
      simp only
      have := mul_lt_mul_of_pos_left hlt hs
      linarith
    have hlt2 : ∀ a b : Fin m, a ≠ b → (xy2 a).1 ≤ (xy2 b).1 → (xy2 a).1 < (xy2 b).1 :=
      fun a b hab hle => lt_of_le_of_ne hle (fun e => hab (hx2 a b e))
    set v : Tri m := (σ t.1.1, σ t.1.2.1, σ t.1.2.2) with hv
    have hv1 : (xy2 v.1).1 < (xy2 v.2.1).1 := hlt1 _ _ ht.distinct.1.1 ht.first.1
    have hv2 : (xy2 v.2.1).1 < (xy2 v.2.2).1 := hlt1 _ _ ht.distinct.1.2.2 ht.first.2
    have hshape : shape xy2 v = shape xy1 t.1 := by
      unfold shape
      rw [hv]
      simp only [hxy]
      exact shape_invariant s tx ty hs _ _ _
    have hmin' := ht.closest v hv1 hv2
    rw [hshape, dist3_self, ht.dist] at hmin'
    have e := dist3_zero hmin'
    have e' : t.2.1 = v := by
      refine hgen _ _ (hlt2 _ _ ht.distinct.2.1 ht.second.1) (hlt2 _ _ ht.distinct.2.2.2 ht.second.2) hv1 hv2 ?_
      rw [hshape, e]
    refine ⟨?_, ?_⟩
    · rw [ht.dist, e, dist3_self]
    · intro i j hij
      unfold Pairs at hij
      rw [e'] at hij
      rcases hij with ⟨rfl, rfl⟩ | ⟨rfl, rfl⟩ | ⟨rfl, rfl⟩ <;> rfl
  have hfull : ∀ i j, full i = some j → j = σ i := by
    intro i j hij
    obtain ⟨t, ht, hp, -⟩ := c2 i j hij
    exact (himg t ht).2 i j hp
  have htot : ∀ i, full i = some (σ i) := by
    intro i
    have hsome : (full i).isSome := by
      have hl : ord1.length = n := by rw [h1.1.length_eq, List.length_finRange]
      obtain ⟨t, ht, hit⟩ := exists_triple ord1 (by omega) i (h1.1.mem_iff.2 (List.mem_finRange i))
      have hd := triples_distinct (ordered_nodup h1) ht
      have hle := triple_sorted h1 ht
      obtain ⟨p, hp, hsim, hcase⟩ := c4 t (lt_of_le_of_ne hle.1 (fun e => hd.1 (hx _ _ e)))
        (lt_of_le_of_ne hle.2 (fun e => hd.2.2 (hx _ _ e)))
      rcases hcase with h | ⟨a, b, b', hab, hb', hne⟩ | h
      · subst hp
        rcases hit with rfl | rfl | rfl
        · rw [h _ _ (Or.inl ⟨rfl, rfl⟩)]; rfl
        · rw [h _ _ (Or.inr (Or.inl ⟨rfl, rfl⟩))]; rfl
        · rw [h _ _ (Or.inr (Or.inr ⟨rfl, rfl⟩))]; rfl
      · exfalso
        apply hne
        rw [hfull a b' hb', (himg p hsim).2 a b hab]
      · exact h i
    obtain ⟨j, hj⟩ := Option.isSome_iff_exists.1 hsome
    rw [hj, hfull i j hj]
  rw [hr]
  congr 1
  refine Prod.ext ?_ ?_
  · funext i
    refine (c1 i (σ i)).2 ⟨htot i, ?_⟩
    intro i' hi'
    exact (σ.injective (hfull i' _ hi')).symm
  · funext i
    obtain ⟨t, ht, -, hdt⟩ := c3 i (σ i) (htot i)
    simp only
    rw [hdt, (himg t ht).1]

theorem increasing_triple (t : Tri 3) (h1 : t.1 < t.2.1) (h2 : t.2.1 < t.2.2) : t = (0, 1, 2) := by
  obtain ⟨a, b, c⟩ := t
  simp only [Fin.lt_def] at h1 h2
  have ha := a.2; have hb := b.2; have hc := c.2
  refine Prod.ext (Fin.ext ?_) (Prod.ext (Fin.ext ?_) (Fin.ext ?_)) <;> simp <;> omega

/-- The hypotheses of the exact recovery are met by three points of distinct first coordinate
(there is only one triangle), listed backwards in the second catalogue. -/
example : ∃ (σ : Fin 3 ≃ Fin 3) (xy1 xy2 : Fin 3 → ℝ × ℝ), (∀ i, xy2 (σ i) = (2 * (xy1 i).1 + 5, 2 * (xy1 i).2 + 1)) ∧
    (∀ i j, (xy1 i).1 = (xy1 j).1 → i = j) ∧
    (∀ t u : Tri 3, (xy2 t.1).1 < (xy2 t.2.1).1 → (xy2 t.2.1).1 < (xy2 t.2.2).1 →
      (xy2 u.1).1 < (xy2 u.2.1).1 → (xy2 u.2.1).1 < (xy2 u.2.2).1 → shape xy2 t = shape xy2 u → t = u) := by
  refine ⟨Equiv.refl _, fun i => (((i : ℕ) : ℝ), ((i : ℕ) : ℝ) ^ 2),
    fun i => (2 * ((i : ℕ) : ℝ) + 5, 2 * ((i : ℕ) : ℝ) ^ 2 + 1), fun i => rfl, ?_, ?_⟩
  · intro i j h
    have h : ((i : ℕ) : ℝ) = ((j : ℕ) : ℝ) := h
    exact Fin.ext (by exact_mod_cast h)
  · have hlt : ∀ i j : Fin 3, 2 * ((i : ℕ) : ℝ) + 5 < 2 * ((j : ℕ) : ℝ) + 5 → i < j := by
      intro i j h
      rw [Fin.lt_def]
      have : ((i : ℕ) : ℝ) < ((j : ℕ) : ℝ) := by linarith
      exact_mod_cast this
    intro t u h1 h2 h3 h4 _
    rw [increasing_triple t (hlt _ _ h1) (hlt _ _ h2), increasing_triple u (hlt _ _ h3) (hlt _ _ h4)]

end Verif.Props
