import Verif.Model.Triangles
import Verif.Props.MatchTriangle
import Mathlib.Data.Fin.Tuple.Sort

/-!
# C110: triangles ordered by their sides
-/

namespace Verif.Props.Triangles
open Verif.Py Verif.Model.Triangles
open Verif.Model.Match (triples)

/-- Asked of `np.argsort`. -/
def Sorts3 (argsort : (Fin 3 → ℝ) → Fin 3 → Fin 3) : Prop :=
  ∀ t, Function.Injective (argsort t) ∧ t (argsort t 0) ≤ t (argsort t 1) ∧ t (argsort t 1) ≤ t (argsort t 2)

/-- Square of a length. -/
def len2 (p q : ℝ × ℝ) : ℝ := (q.1 - p.1) ^ 2 + (q.2 - p.2) ^ 2

theorem dist2_eq : dist2 = len2 := rfl

/-- The first side is the shortest, the third is the longest. -/
def Ordered (a b c : ℝ × ℝ) : Prop := len2 a b ≤ len2 b c ∧ len2 b c ≤ len2 a c

theorem len2_comm (p q : ℝ × ℝ) : len2 p q = len2 q p := by unfold len2; ring

theorem len2_nonneg (p q : ℝ × ℝ) : 0 ≤ len2 p q := by unfold len2; positivity

theorem len2_pos (p q : ℝ × ℝ) (h : p ≠ q) : 0 < len2 p q := by
  refine lt_of_le_of_ne (len2_nonneg p q) fun hz => h ?_
  unfold len2 at hz
  have h1 : (q.1 - p.1) ^ 2 = 0 := by nlinarith [sq_nonneg (q.1 - p.1), sq_nonneg (q.2 - p.2)]
  have h2 : (q.2 - p.2) ^ 2 = 0 := by nlinarith [sq_nonneg (q.1 - p.1), sq_nonneg (q.2 - p.2)]
  have h3 := pow_eq_zero_iff (two_ne_zero) |>.1 h1
  have h4 := pow_eq_zero_iff (two_ne_zero) |>.1 h2
  exact Prod.ext (by linarith) (by linarith)

/-- The new order of the vertices. -/
theorem ordering_ok (P : Fin 3 → ℝ × ℝ) (ii : Fin 3 → Fin 3) (hi : Function.Injective ii) (h1 : tl2 P (ii 0) ≤ tl2 P (ii 1))
    (h2 : tl2 P (ii 1) ≤ tl2 P (ii 2)) : ∃ a b c, ordering ii = .ok (a, b, c) ∧ [a, b, c].Perm [0, 1, 2] ∧ Ordered (P a) (P b) (P c) := by
  have n01 : ii 0 ≠ ii 1 := fun e => absurd (hi e) (by decide)
  have n02 : ii 0 ≠ ii 2 := fun e => absurd (hi e) (by decide)
  have n12 : ii 1 ≠ ii 2 := fun e => absurd (hi e) (by decide)
  have c01 := len2_comm (P 0) (P 1)
  have c12 := len2_comm (P 1) (P 2)
  have c20 := len2_comm (P 2) (P 0)
  have cases3 : ∀ x : Fin 3, x = 0 ∨ x = 1 ∨ x = 2 := by decide
  unfold ordering
  rcases cases3 (ii 0) with a0 | a0 | a0 <;> rcases cases3 (ii 1) with a1 | a1 | a1 <;> rcases cases3 (ii 2) with a2 | a2 | a2 <;>
    first
    | exact absurd (a0.trans a1.symm) n01
    | exact absurd (a0.trans a2.symm) n02
    | exact absurd (a1.trans a2.symm) n12
    | (rw [a0, a1] at h1
       rw [a1, a2] at h2
       rw [a0, a1, a2]
       simp only [tl2, dist2_eq, Matrix.cons_val_zero, Matrix.cons_val_one, Matrix.cons_val] at h1 h2
       refine ⟨_, _, _, rfl, by decide, ?_⟩
       simp only [Ordered]
       constructor <;> linarith)

theorem mem_triples_lt {n : ℕ} (i j k : Fin n) : (i, j, k) ∈ triples (List.finRange n) ↔ i < j ∧ j < k := by
  rw [Verif.Props.Tri.mem_triples]
  constructor
  · intro h
    have hs := (List.pairwise_lt_finRange n).sublist h
    simp only [List.pairwise_cons, List.mem_cons, List.not_mem_nil, or_false, forall_eq_or_imp, forall_eq] at hs
    exact ⟨hs.1.1, hs.2.1⟩
  · rintro ⟨h1, h2⟩
    refine List.sublist_of_subperm_of_pairwise (r := (· < ·)) ?_ ?_ (List.pairwise_lt_finRange n)
    · refine List.Nodup.subperm ?_ (fun x _ => List.mem_finRange x)
      simp only [List.nodup_cons, List.mem_cons, List.not_mem_nil, or_false, not_or]
      exact ⟨⟨ne_of_lt h1, ne_of_lt (lt_trans h1 h2)⟩, ne_of_lt h2, by simp⟩
    · simp only [List.pairwise_cons, List.mem_cons, List.not_mem_nil, or_false, forall_eq_or_imp, forall_eq]
      exact ⟨⟨h1, lt_trans h1 h2⟩, h2, by simp⟩

theorem length_pairs {α : Type} (l : List α) : (Verif.Model.Match.pairs l).length = l.length.choose 2 := by
  induction l with
  | nil => rfl
  | cons a t ih =>
    unfold Verif.Model.Match.pairs
    rw [List.length_append, List.length_map, ih, List.length_cons, Nat.choose_succ_succ' t.length 1, Nat.choose_one_right]

theorem length_triples {α : Type} (l : List α) : (triples l).length = l.length.choose 3 := by
  induction l with
  | nil => rfl
  | cons a t ih =>
    unfold triples
    rw [List.length_append, List.length_map, length_pairs, ih, List.length_cons, Nat.choose_succ_succ' t.length 2]

theorem triangle_ok {n : ℕ} {argsort : (Fin 3 → ℝ) → Fin 3 → Fin 3} (hs : Sorts3 argsort) (xy : Fin n → ℝ × ℝ) (t : Fin n × Fin n × Fin n) :
    ∃ a b c, triangle argsort xy t = .ok ((a, b, c), shape3 (xy a) (xy b) (xy c)) ∧ [a, b, c].Perm [t.1, t.2.1, t.2.2] ∧
      Ordered (xy a) (xy b) (xy c) := by
  obtain ⟨h0, h1, h2⟩ := hs (tl2 fun v => xy ((![t.1, t.2.1, t.2.2] : Fin 3 → Fin n) v))
  obtain ⟨a, b, c, ho, hp, hO⟩ := ordering_ok _ _ h0 h1 h2
  refine ⟨_, _, _, ?_, ?_, hO⟩
  · unfold triangle
    dsimp only
    rw [ho]
    rfl
  · exact hp.map (![t.1, t.2.1, t.2.2] : Fin 3 → Fin n)

/-- **C110** The triangles are all those of the list, each once (there are as many as ways to choose three points), and the vertices of each are
ordered so that the side from first to second is the shortest and that from first to third the longest. There is no
exception, whatever the points. -/
theorem C110_triangles {n : ℕ} {argsort : (Fin 3 → ℝ) → Fin 3 → Fin 3} (hs : Sorts3 argsort) (xy : Fin n → ℝ × ℝ) :
    ∃ out, triangles argsort xy = .ok out ∧ out.length = n.choose 3 ∧
      (∀ i j k, i < j → j < k → ∃ r ∈ out, [r.1.1, r.1.2.1, r.1.2.2].Perm [i, j, k]) ∧
      ∀ r ∈ out, [r.1.1, r.1.2.1, r.1.2.2].Nodup ∧ Ordered (xy r.1.1) (xy r.1.2.1) (xy r.1.2.2) ∧
        r.2 = shape3 (xy r.1.1) (xy r.1.2.1) (xy r.1.2.2) := by
  have key : ∀ l : List (Fin n × Fin n × Fin n), ∃ out, l.mapM (triangle argsort xy) = .ok out ∧
      List.Forall₂ (fun t r => [r.1.1, r.1.2.1, r.1.2.2].Perm [t.1, t.2.1, t.2.2] ∧ Ordered (xy r.1.1) (xy r.1.2.1) (xy r.1.2.2) ∧
        r.2 = shape3 (xy r.1.1) (xy r.1.2.1) (xy r.1.2.2)) l out := by
    intro l
    induction l with
    | nil => exact ⟨[], rfl, List.Forall₂.nil⟩
    | cons t l ih =>
      obtain ⟨out, h1, h2⟩ := ih
      obtain ⟨a, b, c, h3, h4, h5⟩ := triangle_ok hs xy t
      refine ⟨((a, b, c), shape3 (xy a) (xy b) (xy c)) :: out, ?_, List.Forall₂.cons ⟨h4, h5, rfl⟩ h2⟩
      rw [List.mapM_cons, h3, h1]
      rfl
  obtain ⟨out, h1, h2⟩ := key (triples (List.finRange n))
  refine ⟨out, h1, by rw [← h2.length_eq, length_triples, List.length_finRange], ?_, ?_⟩
  · intro i j k hij hjk
    obtain ⟨r, hr, hp, -⟩ := left h2 ((mem_triples_lt i j k).2 ⟨hij, hjk⟩)
    exact ⟨r, hr, hp⟩
  · intro r hr
    obtain ⟨⟨i, j, k⟩, ht, hp, ho, he⟩ := right h2 hr
    refine ⟨?_, ho, he⟩
    rw [hp.nodup_iff]
    obtain ⟨h3, h4⟩ := (mem_triples_lt i j k).1 ht
    simp only [List.nodup_cons, List.mem_cons, List.not_mem_nil, or_false, not_or]
    exact ⟨⟨ne_of_lt h3, ne_of_lt (lt_trans h3 h4)⟩, ne_of_lt h4, by simp⟩
where
  left {α β : Type} {R : α → β → Prop} {l : List α} {m : List β} (h : List.Forall₂ R l m) {a : α} (ha : a ∈ l) : ∃ b ∈ m, R a b := by
    induction h with
    | nil => cases ha
    | cons h1 _ ih =>
      rcases List.mem_cons.1 ha with rfl | ha
      · exact ⟨_, List.mem_cons_self, h1⟩
      · obtain ⟨b, hb, hr⟩ := ih ha
        exact ⟨b, List.mem_cons_of_mem _ hb, hr⟩
  right {α β : Type} {R : α → β → Prop} {l : List α} {m : List β} (h : List.Forall₂ R l m) {b : β} (hb : b ∈ m) : ∃ a ∈ l, R a b := by
    induction h with
    | nil => cases hb
    | cons h1 _ ih =>
      rcases List.mem_cons.1 hb with rfl | hb
      · exact ⟨_, List.mem_cons_self, h1⟩
      · obtain ⟨a, ha, hr⟩ := ih hb
        exact ⟨a, List.mem_cons_of_mem _ ha, hr⟩

theorem perm3 {α : Type} (x y z i j k : α) (hxyz : [x, y, z].Perm [i, j, k]) (hn : [i, j, k].Nodup) :
    (x = i ∧ y = j ∧ z = k) ∨ (x = i ∧ y = k ∧ z = j) ∨ (x = j ∧ y = i ∧ z = k) ∨
      (x = j ∧ y = k ∧ z = i) ∨ (x = k ∧ y = i ∧ z = j) ∨ (x = k ∧ y = j ∧ z = i) := by
  have hnd := hxyz.nodup_iff.2 hn
  have hx : x ∈ [i, j, k] := hxyz.subset (by simp)
  have hy : y ∈ [i, j, k] := hxyz.subset (by simp)
  have hz : z ∈ [i, j, k] := hxyz.subset (by simp)
  simp only [List.nodup_cons, List.mem_cons, List.not_mem_nil, or_false, not_or] at hx hy hz hnd
  obtain ⟨⟨g1, g2⟩, g3, -⟩ := hnd
  rcases hx with h1 | h1 | h1 <;> rcases hy with h2 | h2 | h2 <;> rcases hz with h3 | h3 | h3 <;> first
    | exact absurd (h1.trans h2.symm) g1
    | exact absurd (h1.trans h3.symm) g2
    | exact absurd (h2.trans h3.symm) g3
    | exact Or.inl ⟨h1, h2, h3⟩
    | exact Or.inr (Or.inl ⟨h1, h2, h3⟩)
    | exact Or.inr (Or.inr (Or.inl ⟨h1, h2, h3⟩))
    | exact Or.inr (Or.inr (Or.inr (Or.inl ⟨h1, h2, h3⟩)))
    | exact Or.inr (Or.inr (Or.inr (Or.inr (Or.inl ⟨h1, h2, h3⟩))))
    | exact Or.inr (Or.inr (Or.inr (Or.inr (Or.inr ⟨h1, h2, h3⟩))))

/-- **C110** If its sides have different lengths, the order of the vertices and the shape of a triangle do not depend on the order in which its
vertices are listed, nor on how equal numbers are sorted. -/
theorem C110_listing {n : ℕ} {argsort argsort' : (Fin 3 → ℝ) → Fin 3 → Fin 3} (hs : Sorts3 argsort) (hs' : Sorts3 argsort')
    (xy : Fin n → ℝ × ℝ) (i j k i' j' k' : Fin n) (hp : [i', j', k'].Perm [i, j, k]) (hn : [i, j, k].Nodup)
    (h1 : len2 (xy i) (xy j) ≠ len2 (xy j) (xy k)) (h2 : len2 (xy j) (xy k) ≠ len2 (xy i) (xy k)) (h3 : len2 (xy i) (xy j) ≠ len2 (xy i) (xy k)) :
    triangle argsort xy (i, j, k) = triangle argsort' xy (i', j', k') := by
  obtain ⟨a, b, c, e1, p1, o1⟩ := triangle_ok hs xy (i, j, k)
  obtain ⟨a', b', c', e2, p2, o2⟩ := triangle_ok hs' xy (i', j', k')
  dsimp only at p1 p2
  have p3 : [a', b', c'].Perm [i, j, k] := p2.trans hp
  suffices hx : a = a' ∧ b = b' ∧ c = c' by
    obtain ⟨rfl, rfl, rfl⟩ := hx
    rw [e1, e2]
  have six := fun x y z (hp : [x, y, z].Perm [i, j, k]) => perm3 x y z i j k hp hn
  have cij := len2_comm (xy i) (xy j)
  have cjk := len2_comm (xy j) (xy k)
  have cik := len2_comm (xy i) (xy k)
  obtain ⟨q1, q2⟩ := o1
  obtain ⟨q3, q4⟩ := o2
  generalize hij : len2 (xy i) (xy j) = A at *
  generalize hjk : len2 (xy j) (xy k) = B at *
  generalize hik : len2 (xy i) (xy k) = C at *
  rcases six a b c p1 with ⟨g1, g2, g3⟩ | ⟨g1, g2, g3⟩ | ⟨g1, g2, g3⟩ | ⟨g1, g2, g3⟩ | ⟨g1, g2, g3⟩ | ⟨g1, g2, g3⟩ <;>
    rw [g1, g2, g3] at q1 q2 ⊢ <;>
    rcases six a' b' c' p3 with ⟨g4, g5, g6⟩ | ⟨g4, g5, g6⟩ | ⟨g4, g5, g6⟩ | ⟨g4, g5, g6⟩ | ⟨g4, g5, g6⟩ | ⟨g4, g5, g6⟩ <;>
    rw [g4, g5, g6] at q3 q4 ⊢ <;>
    first
    | exact ⟨rfl, rfl, rfl⟩
    | (exfalso
       simp only [← cij, ← cjk, ← cik, hij, hjk, hik] at q1 q2 q3 q4
       first
       | exact h1 (le_antisymm (by linarith only [q1, q2, q3, q4]) (by linarith only [q1, q2, q3, q4]))
       | exact h2 (le_antisymm (by linarith only [q1, q2, q3, q4]) (by linarith only [q1, q2, q3, q4]))
       | exact h3 (le_antisymm (by linarith only [q1, q2, q3, q4]) (by linarith only [q1, q2, q3, q4])))

theorem shape_ordered (a b c : ℝ × ℝ) (h : Ordered a b c) : (shape3 a b c).1 = Real.sqrt (len2 a c / len2 a b) := by
  unfold shape3
  dsimp only
  rw [dist2_eq]
  obtain ⟨h1, h2⟩ := h
  rw [len2_comm c a, max_eq_right h1, max_eq_right h2, min_eq_left h1, min_eq_left (le_trans h1 h2)]

/-- **C110** For vertices in the order of the sides and not all at the same place, the first number is the ratio of the longest to the shortest side,
at least 1; the other two are cosine and sine of the angle from shortest to longest side at the first vertex, and the cosine is
positive. The three together give the third vertex from the first two: the longest side is the shortest one turned by that angle
and multiplied by the ratio. -/
theorem C110_shape (a b c : ℝ × ℝ) (h : Ordered a b c) (hab : a ≠ b) :
    1 ≤ (shape3 a b c).1 ∧ (shape3 a b c).1 ^ 2 * len2 a b = len2 a c ∧ (shape3 a b c).2.1 ^ 2 + (shape3 a b c).2.2 ^ 2 = 1 ∧ 0 < (shape3 a b c).2.1 ∧
    c.1 - a.1 = (shape3 a b c).1 * ((shape3 a b c).2.1 * (b.1 - a.1) - (shape3 a b c).2.2 * (b.2 - a.2)) ∧
    c.2 - a.2 = (shape3 a b c).1 * ((shape3 a b c).2.2 * (b.1 - a.1) + (shape3 a b c).2.1 * (b.2 - a.2)) := by
  have hs := len2_pos a b hab
  have hle : len2 a b ≤ len2 a c := le_trans h.1 h.2
  have hl : 0 < len2 a c := lt_of_lt_of_le hs hle
  have hr := shape_ordered a b c h
  have hr2 : (shape3 a b c).1 ^ 2 = len2 a c / len2 a b := by
    rw [hr, Real.sq_sqrt (div_nonneg hl.le hs.le)]
  have hr2' : (shape3 a b c).1 ^ 2 * len2 a b = len2 a c := by rw [hr2]; field_simp
  have hr1 : 1 ≤ (shape3 a b c).1 := by
    rw [hr, Real.one_le_sqrt]
    exact (one_le_div hs).2 hle
  set N := Real.sqrt (len2 a b * len2 a c) with hN
  have hNpos : 0 < N := Real.sqrt_pos.2 (mul_pos hs hl)
  have hN2 : N ^ 2 = len2 a b * len2 a c := Real.sq_sqrt (mul_pos hs hl).le
  have ec : (shape3 a b c).2.1 = ((b.1 - a.1) * (c.1 - a.1) + (b.2 - a.2) * (c.2 - a.2)) / N := rfl
  have es : (shape3 a b c).2.2 = ((b.1 - a.1) * (c.2 - a.2) - (c.1 - a.1) * (b.2 - a.2)) / N := rfl
  have hrN : (shape3 a b c).1 / N = 1 / len2 a b := by
    have h1 : (shape3 a b c).1 * len2 a b = N := by
      have hnn : 0 ≤ (shape3 a b c).1 * len2 a b := mul_nonneg (by linarith) hs.le
      rw [← Real.sqrt_sq hnn, hN]
      congr 1
      rw [mul_pow, hr2]
      field_simp
    rw [← h1]
    field_simp
  refine ⟨hr1, hr2', ?_, ?_, ?_, ?_⟩
  · rw [ec, es, div_pow, div_pow, ← add_div, hN2, div_eq_one_iff_eq (mul_pos hs hl).ne']
    unfold len2
    ring
  · rw [ec]
    refine div_pos ?_ hNpos
    have h2 := h.2
    unfold len2 at h2 hs
    nlinarith
  · have : (shape3 a b c).1 * ((shape3 a b c).2.1 * (b.1 - a.1) - (shape3 a b c).2.2 * (b.2 - a.2)) =
        (shape3 a b c).1 / N * (((b.1 - a.1) * (c.1 - a.1) + (b.2 - a.2) * (c.2 - a.2)) * (b.1 - a.1) -
          ((b.1 - a.1) * (c.2 - a.2) - (c.1 - a.1) * (b.2 - a.2)) * (b.2 - a.2)) := by
      rw [ec, es]
      field_simp
    rw [this, hrN]
    field_simp
    unfold len2
    ring
  · have : (shape3 a b c).1 * ((shape3 a b c).2.2 * (b.1 - a.1) + (shape3 a b c).2.1 * (b.2 - a.2)) =
        (shape3 a b c).1 / N * (((b.1 - a.1) * (c.2 - a.2) - (c.1 - a.1) * (b.2 - a.2)) * (b.1 - a.1) +
          ((b.1 - a.1) * (c.1 - a.1) + (b.2 - a.2) * (c.2 - a.2)) * (b.2 - a.2)) := by
      rw [ec, es]
      field_simp
    rw [this, hrN]
    field_simp
    unfold len2
    ring

/-- Rotation, dilatation and translation. -/
def move (p q u v : ℝ) (z : ℝ × ℝ) : ℝ × ℝ := (p * z.1 - q * z.2 + u, q * z.1 + p * z.2 + v)

theorem len2_move (p q u v : ℝ) (a b : ℝ × ℝ) : len2 (move p q u v a) (move p q u v b) = (p ^ 2 + q ^ 2) * len2 a b := by
  unfold len2 move
  dsimp only
  ring

/-- **C110** Two triangles (vertices in the order of the sides) have the same three numbers exactly if one is obtained from the other by rotation,
dilatation and translation: the numbers are invariant and describe the shape completely. -/
theorem C110_similar (a b c a' b' c' : ℝ × ℝ) (h : Ordered a b c) (hab : a ≠ b) (h' : Ordered a' b' c') (hab' : a' ≠ b') :
    shape3 a b c = shape3 a' b' c' ↔ ∃ p q u v, p ^ 2 + q ^ 2 ≠ 0 ∧ move p q u v a = a' ∧ move p q u v b = b' ∧ move p q u v c = c' := by
  constructor
  · intro e
    obtain ⟨-, -, -, -, x1, x2⟩ := C110_shape a b c h hab
    obtain ⟨-, -, -, -, y1, y2⟩ := C110_shape a' b' c' h' hab'
    rw [← e] at y1 y2
    set r := (shape3 a b c).1
    set co := (shape3 a b c).2.1
    set si := (shape3 a b c).2.2
    have hd := len2_pos a b hab
    have hd' := len2_pos a' b' hab'
    set D := len2 a b with hD
    have hDe : D = (b.1 - a.1) ^ 2 + (b.2 - a.2) ^ 2 := rfl
    -- (b' - a') / (b - a) as a complex number
    obtain ⟨p, hp⟩ : ∃ p, p = ((b'.1 - a'.1) * (b.1 - a.1) + (b'.2 - a'.2) * (b.2 - a.2)) / D := ⟨_, rfl⟩
    obtain ⟨q, hq⟩ : ∃ q, q = ((b'.2 - a'.2) * (b.1 - a.1) - (b'.1 - a'.1) * (b.2 - a.2)) / D := ⟨_, rfl⟩
    have hpD : p * D = (b'.1 - a'.1) * (b.1 - a.1) + (b'.2 - a'.2) * (b.2 - a.2) := by rw [hp]; field_simp
    have hqD : q * D = (b'.2 - a'.2) * (b.1 - a.1) - (b'.1 - a'.1) * (b.2 - a.2) := by rw [hq]; field_simp
    have z1 : p * (b.1 - a.1) - q * (b.2 - a.2) = b'.1 - a'.1 := by
      have : (p * (b.1 - a.1) - q * (b.2 - a.2) - (b'.1 - a'.1)) * D = 0 := by
        have : (p * (b.1 - a.1) - q * (b.2 - a.2) - (b'.1 - a'.1)) * D =
          (p * D) * (b.1 - a.1) - (q * D) * (b.2 - a.2) - (b'.1 - a'.1) * D := by ring
        rw [this, hpD, hqD, hDe]
        ring
      have := (mul_eq_zero.1 this).resolve_right hd.ne'
      linarith
    have z2 : q * (b.1 - a.1) + p * (b.2 - a.2) = b'.2 - a'.2 := by
      have : (q * (b.1 - a.1) + p * (b.2 - a.2) - (b'.2 - a'.2)) * D = 0 := by
        have : (q * (b.1 - a.1) + p * (b.2 - a.2) - (b'.2 - a'.2)) * D =
          (q * D) * (b.1 - a.1) + (p * D) * (b.2 - a.2) - (b'.2 - a'.2) * D := by ring
        rw [this, hpD, hqD, hDe]
        ring
      have := (mul_eq_zero.1 this).resolve_right hd.ne'
      linarith
    have hpq : (p ^ 2 + q ^ 2) * D = len2 a' b' := by
      rw [hDe]
      unfold len2
      rw [← z1, ← z2]
      ring
    refine ⟨p, q, a'.1 - (p * a.1 - q * a.2), a'.2 - (q * a.1 + p * a.2), ?_, ?_, ?_, ?_⟩
    · intro hz
      rw [hz, zero_mul] at hpq
      exact absurd hpq hd'.ne
    · exact Prod.ext (by unfold move; ring) (by unfold move; ring)
    · refine Prod.ext ?_ ?_
      · show p * b.1 - q * b.2 + (a'.1 - (p * a.1 - q * a.2)) = b'.1
        linear_combination z1
      · show q * b.1 + p * b.2 + (a'.2 - (q * a.1 + p * a.2)) = b'.2
        linear_combination z2
    · refine Prod.ext ?_ ?_
      · show p * c.1 - q * c.2 + (a'.1 - (p * a.1 - q * a.2)) = c'.1
        linear_combination p * x1 - q * x2 - y1 + r * co * z1 - r * si * z2
      · show q * c.1 + p * c.2 + (a'.2 - (q * a.1 + p * a.2)) = c'.2
        linear_combination q * x1 + p * x2 - y2 + r * si * z1 + r * co * z2
  · rintro ⟨p, q, u, v, hpq, rfl, rfl, rfl⟩
    have hk : 0 < p ^ 2 + q ^ 2 := lt_of_le_of_ne (by positivity) (Ne.symm hpq)
    have hs := len2_pos a b hab
    have hle : len2 a b ≤ len2 a c := le_trans h.1 h.2
    have hl : 0 < len2 a c := lt_of_lt_of_le hs hle
    refine Prod.ext ?_ (Prod.ext ?_ ?_)
    · rw [shape_ordered _ _ _ h, shape_ordered _ _ _ h', len2_move, len2_move, mul_div_mul_left _ _ hk.ne']
    · show _ / Real.sqrt (len2 a b * len2 a c) = _ / Real.sqrt (len2 (move p q u v a) (move p q u v b) * len2 (move p q u v a) (move p q u v c))
      rw [len2_move, len2_move, show (p ^ 2 + q ^ 2) * len2 a b * ((p ^ 2 + q ^ 2) * len2 a c) = (p ^ 2 + q ^ 2) ^ 2 * (len2 a b * len2 a c) by ring,
        Real.sqrt_mul (sq_nonneg (p ^ 2 + q ^ 2)), Real.sqrt_sq hk.le]
      rw [eq_div_iff (mul_pos hk (Real.sqrt_pos.2 (mul_pos hs hl))).ne', div_mul_eq_mul_div, div_eq_iff (Real.sqrt_pos.2 (mul_pos hs hl)).ne']
      unfold move
      dsimp only
      ring
    · show _ / Real.sqrt (len2 a b * len2 a c) = _ / Real.sqrt (len2 (move p q u v a) (move p q u v b) * len2 (move p q u v a) (move p q u v c))
      rw [len2_move, len2_move, show (p ^ 2 + q ^ 2) * len2 a b * ((p ^ 2 + q ^ 2) * len2 a c) = (p ^ 2 + q ^ 2) ^ 2 * (len2 a b * len2 a c) by ring,
        Real.sqrt_mul (sq_nonneg (p ^ 2 + q ^ 2)), Real.sqrt_sq hk.le]
      rw [eq_div_iff (mul_pos hk (Real.sqrt_pos.2 (mul_pos hs hl))).ne', div_mul_eq_mul_div, div_eq_iff (Real.sqrt_pos.2 (mul_pos hs hl)).ne']
      unfold move
      dsimp only
      ring

/-- **C110** A mirror image has the same first two numbers and the opposite third. -/
theorem C110_mirror (a b c : ℝ × ℝ) :
    shape3 (-a.1, a.2) (-b.1, b.2) (-c.1, c.2) = ((shape3 a b c).1, (shape3 a b c).2.1, -(shape3 a b c).2.2) := by
  have hsq : ∀ p q : ℝ × ℝ, len2 (-p.1, p.2) (-q.1, q.2) = len2 p q := by
    intro p q
    unfold len2
    dsimp only
    ring
  unfold shape3
  simp only [dist2_eq, hsq]
  refine Prod.ext rfl (Prod.ext ?_ ?_)
  · dsimp only
    congr 1
    ring
  · dsimp only
    rw [← neg_div]
    congr 1
    ring

/-- **C110** (finding) A triangle with two equal short sides has two orders of vertices in agreement with its sides, with opposite third numbers: which
one is given depends on how the vertices were listed (the comment in the code says that this method is not working well for
such triangles). -/
theorem C110_isosceles (a b c : ℝ × ℝ) (h : len2 a b = len2 b c) (hlong : len2 a b ≤ len2 a c) :
    Ordered a b c ∧ Ordered c b a ∧ (shape3 c b a).1 = (shape3 a b c).1 ∧ (shape3 c b a).2.1 = (shape3 a b c).2.1 ∧
      (shape3 c b a).2.2 = -(shape3 a b c).2.2 := by
  have o1 : Ordered a b c := ⟨h.le, h ▸ hlong⟩
  have o2 : Ordered c b a := ⟨by rw [len2_comm c b, len2_comm b a, h], by rw [len2_comm b a, len2_comm c a]; exact hlong⟩
  have hN : Real.sqrt (len2 c b * len2 c a) = Real.sqrt (len2 a b * len2 a c) := by
    rw [len2_comm c b, len2_comm c a, h]
  refine ⟨o1, o2, ?_, ?_, ?_⟩
  · rw [shape_ordered _ _ _ o1, shape_ordered _ _ _ o2, len2_comm c a, len2_comm c b, h]
  · show _ / Real.sqrt (len2 c b * len2 c a) = _ / Real.sqrt (len2 a b * len2 a c)
    rw [hN]
    congr 1
    unfold len2 at h
    linear_combination -h
  · show _ / Real.sqrt (len2 c b * len2 c a) = -(_ / Real.sqrt (len2 a b * len2 a c))
    rw [hN, ← neg_div]
    congr 1
    ring

/-- A triangle with different sides. -/
example : Ordered (0, 0) (3, 0) (3, 4) ∧ len2 (0, 0) (3, 0) ≠ len2 (3, 0) (3, 4) ∧ len2 (3, 0) (3, 4) ≠ len2 (0, 0) (3, 4) := by
  unfold Ordered len2
  norm_num

/-- There is a sorting as asked. -/
example : ∃ argsort, Sorts3 argsort := by
  classical
  have key : ∀ t : Fin 3 → ℝ, ∃ ii : Fin 3 → Fin 3, Function.Injective ii ∧ t (ii 0) ≤ t (ii 1) ∧ t (ii 1) ≤ t (ii 2) := by
    intro t
    exact ⟨Tuple.sort t, (Tuple.sort t).injective, Tuple.monotone_sort t (by decide), Tuple.monotone_sort t (by decide)⟩
  exact ⟨fun t => (key t).choose, fun t => (key t).choose_spec⟩

end Verif.Props.Triangles
