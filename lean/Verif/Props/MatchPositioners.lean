import Verif.Model.MatchPositioners
import Verif.Props.Match
import Mathlib.Data.Set.Finite.List

namespace Verif.Props
open Verif.Py Verif.Model.Match Verif.Model.MatchPositioners Verif.Lemmas

variable {κ : Type} [LinearOrder κ] {F M C : ℕ}

/-- A set of pairs in which nothing occurs twice on either side. -/
def OneToOne {α β : Type*} (l : List (α × β)) : Prop := (l.map Prod.fst).Nodup ∧ (l.map Prod.snd).Nodup

/-- What `linear_sum_assignment` guarantees: a one to one assignment of the full possible
size, with the largest total score among those. -/
def Solver (lsa : {p q : ℕ} → (Fin p → Fin q → ℕ) → List (Fin p × Fin q)) : Prop :=
  ∀ (p q : ℕ) (score : Fin p → Fin q → ℕ), OneToOne (lsa score) ∧ (lsa score).length = min p q ∧
    ∀ l, OneToOne l → l.length = min p q →
      (l.map fun e => score e.1 e.2).sum ≤ ((lsa score).map fun e => score e.1 e.2).sum

/-- Usable centroids and positioners. -/
def Centroid (fvc : Fin F → FvcRow) (thr : ℝ) (j : Fin F) : Prop := (fvc j).pinhole = 0 ∧ thr < (fvc j).counts
def Positioner (metr : Fin M → MetrRow κ) (i : Fin M) : Prop := (metr i).pinhole = 0

/-- The arm length on file for a positioner (0 when there is none): the last calibration row
with its identifier counts. -/
def ArmLength (metr : Fin M → MetrRow κ) (calib : Fin C → CalibRow κ) (fudge : ℝ) (i : Fin M) (L : ℝ) : Prop :=
  (∃ j, (calib j).pos = (metr i).device ∧ (∀ j', j < j' → (calib j').pos ≠ (metr i).device) ∧
    L = (calib j).r1 + (calib j).r2 + fudge) ∨
  ((∀ j, (calib j).pos ≠ (metr i).device) ∧ L = 0)

/-- At most half of the values are below, at most half above. -/
def IsMedian (l : List ℝ) (m : ℝ) : Prop :=
  2 * (l.filter (· < m)).length ≤ l.length ∧ 2 * (l.filter (m < ·)).length ≤ l.length

/-- The reach of each positioner: its arm length, or a median of the non-zero arm lengths when
there is none on file. -/
def ReachOf (metr : Fin M → MetrRow κ) (calib : Fin C → CalibRow κ) (fudge : ℝ) (reach : Fin M → ℝ) : Prop :=
  ∃ (L : Fin M → ℝ) (med : ℝ), (∀ i, Positioner metr i → ArmLength metr calib fudge i (L i)) ∧
    (∀ i, Positioner metr i → reach i = if L i = 0 then med else L i) ∧
    ∃ nz : List ℝ, nz ≠ [] ∧ IsMedian nz med ∧
      nz.Perm (((List.finRange M).filter fun i => (metr i).pinhole = 0 ∧ L i ≠ 0).map L)

namespace MatchPos

theorem foldl_update {α β γ : Type*} [DecidableEq β] (key : α → β) (val : α → γ) (l : List α)
    (h : (l.map key).Nodup) (r0 : β → Option γ) (k : β) :
    ((∀ x ∈ l, key x ≠ k) → (l.foldl (fun r x => Function.update r (key x) (some (val x))) r0) k = r0 k) ∧
    (∀ x ∈ l, key x = k → (l.foldl (fun r x => Function.update r (key x) (some (val x))) r0) k = some (val x)) := by
  induction l generalizing r0 with
  | nil => simp
  | cons a l ih =>
    rw [List.map_cons, List.nodup_cons] at h
    rw [List.foldl_cons]
    obtain ⟨i1, i2⟩ := ih h.2 (Function.update r0 (key a) (some (val a)))
    constructor
    · intro hk
      rw [i1 (fun x hx => hk x (by simp [hx])), Function.update_of_ne]
      exact fun e => hk a (by simp) e.symm
    · intro x hx e
      rcases List.mem_cons.1 hx with rfl | hx
      · rw [i1, ← e, Function.update_self]
        intro y hy e'
        exact h.1 (List.mem_map.2 ⟨y, hy, by rw [e', e]⟩)
      · exact i2 x hx e

theorem foldl_update_iff {α β γ : Type*} [DecidableEq β] (key : α → β) (val : α → γ) (l : List α)
    (h : (l.map key).Nodup) (k : β) (v : γ) :
    (l.foldl (fun r x => Function.update r (key x) (some (val x))) (fun _ => none)) k = some v ↔
      ∃ x ∈ l, key x = k ∧ val x = v := by
  obtain ⟨h1, h2⟩ := foldl_update key val l h (fun _ => none) k
  constructor
  · intro hv
    by_cases hx : ∃ x ∈ l, key x = k
    · obtain ⟨x, hx, e⟩ := hx
      rw [h2 x hx e] at hv
      injection hv with hv
      exact ⟨x, hx, e, hv⟩
    · push Not at hx
      rw [h1 hx] at hv; cases hv
  · rintro ⟨x, hx, e, rfl⟩
    exact h2 x hx e

/-- A partial assignment can be completed. -/
theorem extend {p q : ℕ} (l : List (Fin p × Fin q)) (h : OneToOne l) :
    ∃ l', OneToOne l' ∧ l'.length = min p q ∧ l.Sublist l' := by
  have hle : l.length ≤ min p q := by
    have h1 := h.1.length_le_card
    have h2 := h.2.length_le_card
    simp only [List.length_map, Fintype.card_fin] at h1 h2
    omega
  induction hk : min p q - l.length generalizing l with
  | zero => exact ⟨l, h, by omega, List.Sublist.refl _⟩
  | succ k ih =>
    have f1 : ∃ a : Fin p, a ∉ l.map Prod.fst := by
      by_contra hcon
      push Not at hcon
      have : (List.finRange p).Subperm (l.map Prod.fst) :=
        List.subperm_of_subset (List.nodup_finRange p) (fun a _ => hcon a)
      have := this.length_le
      simp at this
      omega
    have f2 : ∃ a : Fin q, a ∉ l.map Prod.snd := by
      by_contra hcon
      push Not at hcon
      have : (List.finRange q).Subperm (l.map Prod.snd) :=
        List.subperm_of_subset (List.nodup_finRange q) (fun a _ => hcon a)
      have := this.length_le
      simp at this
      omega
    obtain ⟨a, ha⟩ := f1
    obtain ⟨b, hb⟩ := f2
    obtain ⟨l', h1, h2, h3⟩ := ih ((a, b) :: l)
      ⟨by rw [List.map_cons]; exact List.nodup_cons.2 ⟨ha, h.1⟩, by rw [List.map_cons]; exact List.nodup_cons.2 ⟨hb, h.2⟩⟩
      (by rw [List.length_cons]; omega) (by rw [List.length_cons]; omega)
    exact ⟨l', h1, h2, (List.sublist_cons_self _ _).trans h3⟩

/-- The solver is optimal among all one to one sets of pairs. -/
theorem optimal {lsa : {p q : ℕ} → (Fin p → Fin q → ℕ) → List (Fin p × Fin q)} (hs : Solver lsa) {p q : ℕ}
    (score : Fin p → Fin q → ℕ) (l : List (Fin p × Fin q)) (h : OneToOne l) :
    total score l ≤ total score (lsa score) := by
  obtain ⟨l', h1, h2, h3⟩ := extend l h
  refine le_trans ?_ ((hs p q score).2.2 l' h1 h2)
  exact (h3.map _).sum_le_sum (fun _ _ => Nat.zero_le _)

theorem le_maxArm {p : ℕ} (a : Fin p → ℝ) (i : Fin p) : a i ≤ maxArm a := by
  have hm : a i ∈ (List.finRange p).map a := List.mem_map.2 ⟨i, List.mem_finRange i, rfl⟩
  unfold maxArm
  cases h : (List.finRange p).map a with
  | nil => rw [h] at hm; cases hm
  | cons x l =>
    rw [h] at hm
    have gen : ∀ (l : List ℝ) (x : ℝ), x ≤ l.foldl max x ∧ ∀ y ∈ l, y ≤ l.foldl max x := by
      intro l
      induction l with
      | nil => simp
      | cons b l ih =>
        intro x
        rw [List.foldl_cons]
        obtain ⟨i1, i2⟩ := ih (max x b)
        refine ⟨(le_max_left x b).trans i1, ?_⟩
        intro y hy
        rcases List.mem_cons.1 hy with rfl | hy
        · exact (le_max_right x y).trans i1
        · exact i2 y hy
    rcases List.mem_cons.1 hm with e | hy
    · rw [e]; exact (gen l x).1
    · exact (gen l x).2 _ hy

theorem score_eq {p q : ℕ} (mxy : Fin p → ℝ × ℝ) (fxy : Fin q → ℝ × ℝ) (arm : Fin p → ℝ) (i : Fin p) (j : Fin q) :
    scoreMatrix mxy fxy arm i j = if dist2 (mxy i) (fxy j) < arm i then 1 else 0 := by
  unfold scoreMatrix
  refine if_congr ?_ rfl rfl
  refine ⟨fun h => h.2, fun h => ⟨?_, h⟩⟩
  have := le_maxArm arm i
  norm_num
  linarith

theorem median_spec (l : List ℝ) : IsMedian l (median l) := by
  unfold median
  dsimp only
  set s := pySort id l with hs
  have hperm : s.Perm l := perm_pySort id l
  have hlen : s.length = l.length := hperm.length_eq
  have hsort : s.Pairwise (· ≤ ·) := sorted_pySort id l
  set n := l.length with hn
  rcases Nat.eq_zero_or_pos n with h0 | hpos
  · have : l = [] := List.length_eq_zero_iff.1 (by rw [← hn]; exact h0)
    unfold IsMedian; rw [this]; simp
  have ha : (n - 1) / 2 < s.length := by omega
  have hb : n / 2 < s.length := by omega
  set a := s.getD ((n - 1) / 2) 0 with hadef
  set b := s.getD (n / 2) 0 with hbdef
  have ea : a = s[(n - 1) / 2] := by rw [hadef]; simp [List.getD_eq_getElem?_getD, List.getElem?_eq_getElem ha]
  have eb : b = s[n / 2] := by rw [hbdef]; simp [List.getD_eq_getElem?_getD, List.getElem?_eq_getElem hb]
  have hmono : ∀ i j (hi : i < s.length) (hj : j < s.length), i ≤ j → s[i] ≤ s[j] := by
    intro i j hi hj hij
    rcases Nat.eq_or_lt_of_le hij with e | h
    · subst e; exact le_refl _
    · exact List.pairwise_iff_getElem.1 hsort i j hi hj h
  have hab : a ≤ b := by rw [ea, eb]; exact hmono _ _ _ _ (by omega)
  unfold IsMedian
  constructor
  · rw [← (hperm.filter _).length_eq]
    have hsplit : (s.filter (· < (a + b) / 2)).length ≤ n / 2 := by
      rw [← List.take_append_drop (n / 2) s, List.filter_append, List.length_append]
      have h1 : ((s.drop (n / 2)).filter (· < (a + b) / 2)) = [] := by
        rw [List.filter_eq_nil_iff]
        intro x hx
        obtain ⟨k, hk, rfl⟩ := List.getElem_of_mem hx
        rw [List.getElem_drop]
        simp only [decide_eq_true_eq, not_lt]
        have := hmono (n / 2) (n / 2 + k) hb (by rw [List.length_drop] at hk; omega) (by omega)
        rw [← eb] at this
        linarith
      rw [h1]
      have h2 := List.length_filter_le (fun x => decide (x < (a + b) / 2)) (s.take (n / 2))
      rw [List.length_take] at h2
      simp only [List.length_nil]
      omega
    omega
  · rw [← (hperm.filter _).length_eq]
    have hsplit : (s.filter ((a + b) / 2 < ·)).length ≤ n - ((n - 1) / 2 + 1) := by
      rw [← List.take_append_drop ((n - 1) / 2 + 1) s, List.filter_append, List.length_append]
      have h1 : ((s.take ((n - 1) / 2 + 1)).filter ((a + b) / 2 < ·)) = [] := by
        rw [List.filter_eq_nil_iff]
        intro x hx
        obtain ⟨k, hk, rfl⟩ := List.getElem_of_mem hx
        rw [List.getElem_take]
        simp only [decide_eq_true_eq, not_lt]
        rw [List.length_take] at hk
        have := hmono k ((n - 1) / 2) (by omega) ha (by omega)
        rw [← ea] at this
        linarith
      rw [h1]
      have h2 := List.length_filter_le (fun x => decide ((a + b) / 2 < x)) (s.drop ((n - 1) / 2 + 1))
      rw [List.length_drop] at h2
      simp only [List.length_nil]
      omega
    omega

/-- The arm lengths read from the calibration table. -/
theorem rawArms_spec {p : ℕ} {dev : Fin p → κ} {calib : Fin C → CalibRow κ} {fudge : ℝ} {a : Fin p → ℝ}
    (h : rawArms dev calib fudge = .ok a) (i : Fin p) :
    (∃ j, (calib j).pos = dev i ∧ (∀ j', j < j' → (calib j').pos ≠ dev i) ∧
      a i = (calib j).r1 + (calib j).r2 + fudge) ∨
    ((∀ j, (calib j).pos ≠ dev i) ∧ a i = 0) := by
  unfold rawArms at h
  obtain ⟨⟨mm, mc⟩, hk, h⟩ := bind_ok h
  have hinj : Function.Injective dev := by
    by_contra hc
    rw [(C32_key_join dev _).1 hc] at hk; cases hk
  obtain ⟨ma, mb, hk', hf, hsort, hmem⟩ := (C32_key_join dev (fun j => (calib j).pos)).2 hinj
  rw [hk] at hk'
  injection hk' with hk'
  have e1 : mm = ma := congrArg Prod.fst hk'
  have e2 : mc = mb := congrArg Prod.snd hk'
  subst e1 e2
  injection h with h
  rw [← h]
  have gen : ∀ (ma : List (Fin p)) (mb : List (Fin C)), List.Forall₂ (fun i j => dev i = (calib j).pos) ma mb →
      mb.Pairwise (· < ·) → ∀ a0 : Fin p → ℝ,
      (∃ j ∈ mb, (calib j).pos = dev i ∧ (∀ j' ∈ mb, j < j' → (calib j').pos ≠ dev i) ∧
        ((ma.zip mb).foldl (fun a ij => Function.update a ij.1 ((calib ij.2).r1 + (calib ij.2).r2 + fudge)) a0) i =
          (calib j).r1 + (calib j).r2 + fudge) ∨
      ((∀ j ∈ mb, (calib j).pos ≠ dev i) ∧
        ((ma.zip mb).foldl (fun a ij => Function.update a ij.1 ((calib ij.2).r1 + (calib ij.2).r2 + fudge)) a0) i = a0 i) := by
    intro ma mb hf
    induction hf with
    | nil => intro _ a0; right; exact ⟨by simp, rfl⟩
    | cons h1 h2 ih =>
      rename_i x y xs ys
      intro hp a0
      rw [List.pairwise_cons] at hp
      rw [List.zip_cons_cons, List.foldl_cons]
      rcases ih hp.2 (Function.update a0 x ((calib y).r1 + (calib y).r2 + fudge)) with ⟨j, hj, g1, g2, g3⟩ | ⟨g1, g2⟩
      · left
        refine ⟨j, by simp [hj], g1, ?_, g3⟩
        intro j' hj' hlt
        rcases List.mem_cons.1 hj' with e | hj'
        · subst e; exact absurd (hp.1 j hj) (not_lt.2 hlt.le)
        · exact g2 j' hj' hlt
      · by_cases hx : x = i
        · left
          subst hx
          refine ⟨y, by simp, h1.symm, ?_, ?_⟩
          · intro j' hj' hlt
            rcases List.mem_cons.1 hj' with e | hj'
            · subst e; exact absurd hlt (lt_irrefl _)
            · exact g1 j' hj'
          · rw [g2, Function.update_self]
        · right
          refine ⟨?_, ?_⟩
          · intro j hj
            rcases List.mem_cons.1 hj with e | hj
            · subst e; rw [← h1]; exact fun e => hx (hinj e)
            · exact g1 j hj
          · rw [g2, Function.update_of_ne (fun e => hx e.symm)]
  rcases gen mm mc hf hsort (fun _ => 0) with ⟨j, hj, g1, g2, g3⟩ | ⟨g1, g2⟩
  · left
    refine ⟨j, g1, ?_, g3⟩
    intro j' hlt e
    exact g2 j' ((hmem j').2 ⟨i, e.symm⟩) hlt e
  · right
    refine ⟨?_, g2⟩
    intro j e
    exact g1 j ((hmem j).2 ⟨i, e.symm⟩) e

theorem get_injective {α : Type*} {l : List α} (h : l.Nodup) : Function.Injective l.get :=
  List.nodup_iff_injective_get.1 h

theorem metrPos_nodup (metr : Fin M → MetrRow κ) : (metrPos metr).Nodup := (List.nodup_finRange M).filter _
theorem fvcPos_nodup (fvc : Fin F → FvcRow) (thr : ℝ) : (fvcPos fvc thr).Nodup := (List.nodup_finRange F).filter _

theorem mem_metrPos (metr : Fin M → MetrRow κ) (i : Fin M) : (∃ k, (metrPos metr).get k = i) ↔ Positioner metr i := by
  rw [← List.mem_iff_get]
  unfold metrPos Positioner
  simp

theorem mem_fvcPos (fvc : Fin F → FvcRow) (thr : ℝ) (j : Fin F) :
    (∃ k, (fvcPos fvc thr).get k = j) ↔ Centroid fvc thr j := by
  rw [← List.mem_iff_get]
  unfold fvcPos Centroid
  simp

theorem nodup_comp {α β γ : Type*} {f : α → β} {g : β → γ} (hg : Function.Injective g) {l : List α}
    (h : (l.map f).Nodup) : (l.map fun x => g (f x)).Nodup := by
  have : (l.map fun x => g (f x)) = (l.map f).map g := by rw [List.map_map]; rfl
  rw [this]; exact h.map hg

/-- Pairs of table rows come from pairs of positions. -/
theorem lift {p q : ℕ} {mp : Fin p → Fin M} {fp : Fin q → Fin F} (l : List (Fin M × Fin F))
    (h : ∀ e ∈ l, (∃ i, mp i = e.1) ∧ ∃ j, fp j = e.2) : ∃ l' : List (Fin p × Fin q), l'.map (fun e => (mp e.1, fp e.2)) = l := by
  induction l with
  | nil => exact ⟨[], rfl⟩
  | cons e l ih =>
    obtain ⟨l', h'⟩ := ih (fun x hx => h x (by simp [hx]))
    obtain ⟨⟨i, hi⟩, ⟨j, hj⟩⟩ := h e (by simp)
    exact ⟨(i, j) :: l', by rw [List.map_cons, h', hi, hj]⟩

theorem oneToOne_of_map {p q : ℕ} {mp : Fin p → Fin M} {fp : Fin q → Fin F} {l : List (Fin p × Fin q)}
    (h : OneToOne (l.map fun e => (mp e.1, fp e.2))) : OneToOne l := by
  obtain ⟨h1, h2⟩ := h
  rw [List.map_map] at h1 h2
  constructor
  · have : (l.map Prod.fst).map mp = l.map (Prod.fst ∘ fun e => (mp e.1, fp e.2)) := by rw [List.map_map]; rfl
    rw [← this] at h1
    exact List.Nodup.of_map _ h1
  · have : (l.map Prod.snd).map fp = l.map (Prod.snd ∘ fun e => (mp e.1, fp e.2)) := by rw [List.map_map]; rfl
    rw [← this] at h2
    exact List.Nodup.of_map _ h2

theorem total_le_length {p q : ℕ} (score : Fin p → Fin q → ℕ) (h : ∀ i j, score i j ≤ 1) (l : List (Fin p × Fin q)) :
    total score l ≤ l.length := by
  unfold total
  induction l with
  | nil => simp
  | cons e l ih => simp only [List.map_cons, List.sum_cons, List.length_cons]; have := h e.1 e.2; omega

theorem total_eq_length {p q : ℕ} (score : Fin p → Fin q → ℕ) (l : List (Fin p × Fin q))
    (h : ∀ e ∈ l, score e.1 e.2 = 1) : total score l = l.length := by
  unfold total
  induction l with
  | nil => simp
  | cons e l ih =>
    simp only [List.map_cons, List.sum_cons, List.length_cons]
    rw [h e (by simp), ih (fun x hx => h x (by simp [hx]))]; omega

theorem total_eq_filter {p q : ℕ} (score : Fin p → Fin q → ℕ) (h : ∀ i j, score i j = 0 ∨ score i j = 1)
    (l : List (Fin p × Fin q)) : total score l = (l.filter fun e => score e.1 e.2 = 1).length := by
  unfold total
  induction l with
  | nil => simp
  | cons e l ih =>
    simp only [List.map_cons, List.sum_cons]
    rcases h e.1 e.2 with h0 | h1
    · rw [List.filter_cons_of_neg (by simp [h0]), h0, ih]; simp
    · rw [List.filter_cons_of_pos (by simp [h1]), h1, ih, List.length_cons]; omega

end MatchPos
open MatchPos

/-- Number of centroids that get a value satisfying `P`. -/
noncomputable def countIf {α : Type*} (f : Fin F → Option α) (P : Fin F → α → Prop) : ℕ :=
  open Classical in ((List.finRange F).filter fun j => ∃ a, f j = some a ∧ P j a).length

/-- Counting through a one to one placement. -/
theorem count_place {p q : ℕ} {mp : Fin p → Fin M} {fp : Fin q → Fin F} (hfp : Function.Injective fp)
    {l : List (Fin p × Fin q)} (hl : (l.map Prod.snd).Nodup) (P : Fin F → Fin M → Prop) [DecidablePred fun e : Fin p × Fin q => P (fp e.2) (mp e.1)] :
    countIf (place mp fp l) P = (l.filter fun e => P (fp e.2) (mp e.1)).length := by
  classical
  unfold countIf
  have hnd : (l.map fun e => fp e.2).Nodup := nodup_comp hfp hl
  have hp : ((List.finRange F).filter fun j => ∃ a, place mp fp l j = some a ∧ P j a).Perm
      ((l.filter fun e => P (fp e.2) (mp e.1)).map fun e => fp e.2) := by
    refine (List.perm_ext_iff_of_nodup ((List.nodup_finRange F).filter _) ?_).2 ?_
    · exact hnd.sublist ((List.filter_sublist (l := l)).map _)
    · intro j
      rw [List.mem_filter, List.mem_map]
      simp only [List.mem_finRange, true_and, decide_eq_true_eq]
      constructor
      · rintro ⟨a, h1, h2⟩
        obtain ⟨e, he, e1, e2⟩ := (foldl_update_iff (fun e : Fin p × Fin q => fp e.2) (fun e => mp e.1) l hnd j a).1 h1
        refine ⟨e, List.mem_filter.2 ⟨he, ?_⟩, e1⟩
        simp only [decide_eq_true_eq]
        rw [e1, e2]; exact h2
      · rintro ⟨e, he, rfl⟩
        rw [List.mem_filter] at he
        refine ⟨mp e.1, (foldl_update_iff (fun e : Fin p × Fin q => fp e.2) (fun e => mp e.1) l hnd _ _).2 ⟨e, he.1, rfl, rfl⟩, ?_⟩
        simpa using he.2
  have := hp.length_eq
  rw [List.length_map] at this
  convert this

/-- A set of pairs of usable rows within reach. -/
def Feasible (fvc : Fin F → FvcRow) (metr : Fin M → MetrRow κ) (thr : ℝ) (reach : Fin M → ℝ)
    (l : List (Fin M × Fin F)) : Prop :=
  OneToOne l ∧ ∀ e ∈ l, Positioner metr e.1 ∧ Centroid fvc thr e.2 ∧ dist2 (metr e.1).xy (fvc e.2).xy < reach e.1

/-- Everything about one successful run. -/
theorem run_spec' {lsa : {p q : ℕ} → (Fin p → Fin q → ℕ) → List (Fin p × Fin q)} {fvc : Fin F → FvcRow}
    {metr : Fin M → MetrRow κ} {calib : Fin C → CalibRow κ} {thr fudge : ℝ} {alt : Bool} {r : Result F M}
    (h : matchPositioners lsa fvc metr calib thr fudge alt = .ok r) :
    ∃ (arm : Fin (metrPos metr).length → ℝ) (reach : Fin M → ℝ), ReachOf metr calib fudge reach ∧
      (∀ i, reach ((metrPos metr).get i) = arm i) ∧
      let score := scoreMatrix (fun i => (metr ((metrPos metr).get i)).xy) (fun j => (fvc ((fvcPos fvc thr).get j)).xy) arm
      r = { ret := place (metrPos metr).get (fvcPos fvc thr).get (lsa score)
            scores := (lsa score).foldl (fun r ij => Function.update r ((fvcPos fvc thr).get ij.2) (some (score ij.1 ij.2))) fun _ => none
            score := total score (lsa score)
            alternatives := (if alt then alternatives lsa score (lsa score) else []).map
              (place (metrPos metr).get (fvcPos fvc thr).get) } := by
  unfold matchPositioners at h
  obtain ⟨raw, hraw, h⟩ := bind_ok h
  obtain ⟨arm, harm, h⟩ := bind_ok h
  dsimp only at h
  split at h
  · cases h
  injection h with h
  have hinj := get_injective (metrPos_nodup metr)
  refine ⟨arm, Function.extend (metrPos metr).get arm (fun _ => 0), ?_, fun i => hinj.extend_apply _ _ i, h.symm⟩
  unfold fillArms at harm
  dsimp only at harm
  split_ifs at harm with h0 hnz
  injection harm with harm
  set L : Fin M → ℝ := Function.extend (metrPos metr).get raw (fun _ => 0) with hL
  have hLi : ∀ i, L ((metrPos metr).get i) = raw i := fun i => hinj.extend_apply _ _ i
  refine ⟨L, median (((List.finRange (metrPos metr).length).map raw).filter (· ≠ 0)), ?_, ?_, _, hnz, median_spec _, ?_⟩
  · intro i hi
    obtain ⟨k, rfl⟩ := (mem_metrPos metr i).2 hi
    rw [hLi]
    exact rawArms_spec hraw k
  · intro i hi
    obtain ⟨k, rfl⟩ := (mem_metrPos metr i).2 hi
    rw [hLi, hinj.extend_apply, ← harm]
  · have e1 : (List.finRange (metrPos metr).length).map raw = (metrPos metr).map L := by
      have : (metrPos metr).map L = ((List.finRange (metrPos metr).length).map (metrPos metr).get).map L := by
        rw [← List.ofFn_eq_map, List.ofFn_get]
      rw [this, List.map_map]
      apply List.map_congr_left
      intro i _
      exact (hLi i).symm
    rw [e1, List.filter_map]
    have e2 : (metrPos metr).filter ((fun x => decide (x ≠ 0)) ∘ L) =
        (List.finRange M).filter fun i => (metr i).pinhole = 0 ∧ L i ≠ 0 := by
      unfold metrPos
      rw [List.filter_filter]
      apply List.filter_congr
      intro i _
      simp only [Function.comp, Bool.decide_and]
      rw [Bool.and_comm]
    rw [e2]

/-- C33: the assignment.  Only usable spots and positioners are paired, one to one; the score
of a pair is 1 exactly when the spot is within reach of its positioner; the number of pairs is
the smaller of the two numbers of usable rows; the total score is the number of pairs within
reach, and no one to one set of pairs within reach is larger. -/
theorem C33_assignment {lsa : {p q : ℕ} → (Fin p → Fin q → ℕ) → List (Fin p × Fin q)} (hs : Solver lsa)
    {fvc : Fin F → FvcRow} {metr : Fin M → MetrRow κ} {calib : Fin C → CalibRow κ} {thr fudge : ℝ} {alt : Bool}
    {r : Result F M} (h : matchPositioners lsa fvc metr calib thr fudge alt = .ok r) :
    ∃ reach : Fin M → ℝ, ReachOf metr calib fudge reach ∧
    (∀ j i, r.ret j = some i → Centroid fvc thr j ∧ Positioner metr i) ∧
    (∀ j j' i, r.ret j = some i → r.ret j' = some i → j = j') ∧
    (∀ j i, r.ret j = some i →
      (dist2 (metr i).xy (fvc j).xy < reach i ∧ r.scores j = some 1) ∨
      (¬ dist2 (metr i).xy (fvc j).xy < reach i ∧ r.scores j = some 0)) ∧
    (∀ j, r.ret j = none → r.scores j = none) ∧
    countIf r.ret (fun _ _ => True) = min (metrPos metr).length (fvcPos fvc thr).length ∧
    r.score = countIf r.ret (fun j i => dist2 (metr i).xy (fvc j).xy < reach i) ∧
    (∀ l, Feasible fvc metr thr reach l → l.length ≤ r.score) := by
  obtain ⟨arm, reach, hreach, hra, hr⟩ := run_spec' h
  dsimp only at hr
  set mp := (metrPos metr).get with hmp
  set fp := (fvcPos fvc thr).get with hfp
  set score := scoreMatrix (fun i => (metr (mp i)).xy) (fun j => (fvc (fp j)).xy) arm with hscore
  have hmpi : Function.Injective mp := get_injective (metrPos_nodup metr)
  have hfpi : Function.Injective fp := get_injective (fvcPos_nodup fvc thr)
  obtain ⟨ho, hlen, -⟩ := hs _ _ score
  set A := lsa score with hA
  have hnd : (A.map fun e => fp e.2).Nodup := nodup_comp hfpi ho.2
  have hret : ∀ j i, r.ret j = some i ↔ ∃ e ∈ A, fp e.2 = j ∧ mp e.1 = i := by
    intro j i
    rw [hr]
    exact foldl_update_iff (fun e => fp e.2) (fun e => mp e.1) A hnd j i
  have hsc : ∀ j s, r.scores j = some s ↔ ∃ e ∈ A, fp e.2 = j ∧ score e.1 e.2 = s := by
    intro j i
    rw [hr]
    exact foldl_update_iff (fun e => fp e.2) (fun e => score e.1 e.2) A hnd j i
  have hse : ∀ i j, score i j = if dist2 (metr (mp i)).xy (fvc (fp j)).xy < reach (mp i) then 1 else 0 := by
    intro i j; rw [hscore, score_eq, hra]
  refine ⟨reach, hreach, ?_, ?_, ?_, ?_, ?_, ?_, ?_⟩
  · intro j i hji
    obtain ⟨e, -, e1, e2⟩ := (hret j i).1 hji
    exact ⟨(mem_fvcPos fvc thr j).1 ⟨_, e1⟩, (mem_metrPos metr i).1 ⟨_, e2⟩⟩
  · intro j j' i h1 h2
    obtain ⟨e, he, e1, e2⟩ := (hret j i).1 h1
    obtain ⟨e', he', e1', e2'⟩ := (hret j' i).1 h2
    have : e.1 = e'.1 := hmpi (by rw [e2, e2'])
    have : e = e' := List.inj_on_of_nodup_map ho.1 he he' this
    rw [← e1, ← e1', this]
  · intro j i hji
    obtain ⟨e, he, e1, e2⟩ := (hret j i).1 hji
    have hsj := (hsc j _).2 ⟨e, he, e1, rfl⟩
    rw [hse, e1, e2] at hsj
    split_ifs at hsj with hd
    · exact Or.inl ⟨hd, hsj⟩
    · exact Or.inr ⟨hd, hsj⟩
  · intro j hj
    cases hsj : r.scores j with
    | none => rfl
    | some s =>
      obtain ⟨e, he, e1, -⟩ := (hsc j s).1 hsj
      rw [(hret j (mp e.1)).2 ⟨e, he, e1, rfl⟩] at hj; cases hj
  · rw [hr]
    simp only
    rw [count_place hfpi ho.2 (fun _ _ => True)]
    simp only [decide_true, List.filter_true]
    exact hlen
  · rw [hr]
    simp only
    rw [count_place hfpi ho.2 (fun j i => dist2 (metr i).xy (fvc j).xy < reach i),
      total_eq_filter score (fun i j => by rw [hse]; split_ifs <;> simp)]
    congr 1
    apply List.filter_congr
    intro e _
    rw [hse]
    simp
  · intro l hl
    obtain ⟨l', hl'⟩ := lift (mp := mp) (fp := fp) l (fun e he =>
      ⟨(mem_metrPos metr e.1).2 (hl.2 e he).1, (mem_fvcPos fvc thr e.2).2 (hl.2 e he).2.1⟩)
    have ho' : OneToOne l' := oneToOne_of_map (by rw [hl']; exact hl.1)
    have hopt := optimal hs score l' ho'
    rw [total_eq_length score l' (by
      intro e he
      rw [hse, if_pos]
      have : (mp e.1, fp e.2) ∈ l := by rw [← hl']; exact List.mem_map.2 ⟨e, he, rfl⟩
      exact (hl.2 _ this).2.2)] at hopt
    have : l.length = l'.length := by rw [← hl', List.length_map]
    rw [this, hr]
    exact hopt

/-- C33: the alternatives.  Each is a one to one assignment of usable rows with the same number
of pairs within reach; and whenever an equally good assignment avoids some pair within reach of
the answer, some reported alternative avoids it. -/
theorem C33_alternatives {lsa : {p q : ℕ} → (Fin p → Fin q → ℕ) → List (Fin p × Fin q)} (hs : Solver lsa)
    {fvc : Fin F → FvcRow} {metr : Fin M → MetrRow κ} {calib : Fin C → CalibRow κ} {thr fudge : ℝ}
    {r : Result F M} (h : matchPositioners lsa fvc metr calib thr fudge true = .ok r) :
    ∃ reach : Fin M → ℝ, ReachOf metr calib fudge reach ∧
    (∀ a ∈ r.alternatives, (∀ j i, a j = some i → Centroid fvc thr j ∧ Positioner metr i) ∧
      (∀ j j' i, a j = some i → a j' = some i → j = j') ∧
      countIf a (fun j i => dist2 (metr i).xy (fvc j).xy < reach i) = r.score ∧
      ∃ j i, r.ret j = some i ∧ (dist2 (metr i).xy (fvc j).xy < reach i → a j ≠ some i)) ∧
    (∀ j i, r.ret j = some i → dist2 (metr i).xy (fvc j).xy < reach i →
      (∃ l, Feasible fvc metr thr reach l ∧ l.length = r.score ∧ (i, j) ∉ l) →
      ∃ a ∈ r.alternatives, a j ≠ some i) := by
  obtain ⟨arm, reach, hreach, hra, hr⟩ := run_spec' h
  dsimp only at hr
  set mp := (metrPos metr).get with hmp
  set fp := (fvcPos fvc thr).get with hfp
  set score := scoreMatrix (fun i => (metr (mp i)).xy) (fun j => (fvc (fp j)).xy) arm with hscore
  have hmpi : Function.Injective mp := get_injective (metrPos_nodup metr)
  have hfpi : Function.Injective fp := get_injective (fvcPos_nodup fvc thr)
  obtain ⟨ho, hlen, -⟩ := hs _ _ score
  set A := lsa score with hA
  have hpl : ∀ (B : List (Fin (metrPos metr).length × Fin (fvcPos fvc thr).length)), OneToOne B → ∀ j i,
      place mp fp B j = some i ↔ ∃ e ∈ B, fp e.2 = j ∧ mp e.1 = i := by
    intro B hB j i
    exact foldl_update_iff (fun e => fp e.2) (fun e => mp e.1) B (nodup_comp (f := Prod.snd) hfpi hB.2) j i
  have hret : ∀ j i, r.ret j = some i ↔ ∃ e ∈ A, fp e.2 = j ∧ mp e.1 = i := by
    intro j i; rw [hr]; exact hpl A ho j i
  have hse : ∀ i j, score i j = if dist2 (metr (mp i)).xy (fvc (fp j)).xy < reach (mp i) then 1 else 0 := by
    intro i j; rw [hscore, score_eq, hra]
  have hs01 : ∀ i j, score i j = 0 ∨ score i j = 1 := by
    intro i j; rw [hse]; split_ifs <;> simp
  have hrs : r.score = total score A := by rw [hr]
  have halts : ∀ a, a ∈ r.alternatives ↔ ∃ e ∈ A,
      total (fun i j => if i = e.1 ∧ j = e.2 then 0 else score i j)
        (lsa (fun i j => if i = e.1 ∧ j = e.2 then 0 else score i j)) = total score A ∧
      a = place mp fp (lsa (fun i j => if i = e.1 ∧ j = e.2 then 0 else score i j)) := by
    intro a
    rw [hr]
    simp only [if_true, List.mem_map, alternatives, List.mem_filterMap]
    constructor
    · rintro ⟨B, ⟨e, he, hB⟩, rfl⟩
      split_ifs at hB with ht
      injection hB with hB
      exact ⟨e, he, ht, by rw [hB]⟩
    · rintro ⟨e, he, ht, rfl⟩
      exact ⟨_, ⟨e, he, if_pos ht⟩, rfl⟩
  -- removing an edge in use lowers the score of a set containing it
  have hmono : ∀ (e : Fin (metrPos metr).length × Fin (fvcPos fvc thr).length) (B : List _),
      total (fun i j => if i = e.1 ∧ j = e.2 then 0 else score i j) B ≤ total score B := by
    intro e B
    induction B with
    | nil => simp [total]
    | cons x B ih => simp only [total, List.map_cons, List.sum_cons] at ih ⊢; split_ifs <;> omega
  have hstrict : ∀ (e : Fin (metrPos metr).length × Fin (fvcPos fvc thr).length) (B : List _), e ∈ B → score e.1 e.2 = 1 →
      total (fun i j => if i = e.1 ∧ j = e.2 then 0 else score i j) B < total score B := by
    intro e B he h1
    induction B with
    | nil => cases he
    | cons x B ih =>
      have hm := hmono e B
      simp only [total, List.map_cons, List.sum_cons] at hm ih ⊢
      rcases List.mem_cons.1 he with rfl | he
      · rw [if_pos ⟨rfl, rfl⟩, h1]; omega
      · have := ih he
        split_ifs <;> omega
  refine ⟨reach, hreach, ?_, ?_⟩
  · intro a ha
    obtain ⟨e, he, ht, rfl⟩ := (halts a).1 ha
    set B := lsa (fun i j => if i = e.1 ∧ j = e.2 then 0 else score i j) with hB
    obtain ⟨hoB, -, -⟩ := hs _ _ (fun i j => if i = e.1 ∧ j = e.2 then 0 else score i j)
    change OneToOne B at hoB
    have hBle := optimal hs score B hoB
    have hBge := hmono e B
    have hBeq : total score B = total score A := by rw [← hA] at hBle; omega
    refine ⟨?_, ?_, ?_, fp e.2, mp e.1, (hret _ _).2 ⟨e, he, rfl, rfl⟩, ?_⟩
    · intro j i hji
      obtain ⟨x, -, e1, e2⟩ := (hpl B hoB j i).1 hji
      exact ⟨(mem_fvcPos fvc thr j).1 ⟨_, e1⟩, (mem_metrPos metr i).1 ⟨_, e2⟩⟩
    · intro j j' i h1 h2
      obtain ⟨x, hx, e1, e2⟩ := (hpl B hoB j i).1 h1
      obtain ⟨x', hx', e1', e2'⟩ := (hpl B hoB j' i).1 h2
      have : x.1 = x'.1 := hmpi (by rw [e2, e2'])
      have : x = x' := List.inj_on_of_nodup_map hoB.1 hx hx' this
      rw [← e1, ← e1', this]
    · rw [count_place hfpi hoB.2 (fun j i => dist2 (metr i).xy (fvc j).xy < reach i), hrs, ← hBeq,
        total_eq_filter score hs01]
      congr 1
      apply List.filter_congr
      intro x _
      rw [hse]
      simp
    · intro hd hplace
      obtain ⟨x, hx, e1, e2⟩ := (hpl B hoB _ _).1 hplace
      have hxe : x = e := Prod.ext (hmpi e2) (hfpi e1)
      subst hxe
      have := hstrict x B hx (by rw [hse, if_pos hd])
      omega
  · rintro j i hji hd ⟨l, hl, hll, hnot⟩
    obtain ⟨e, he, e1, e2⟩ := (hret j i).1 hji
    set B := lsa (fun i j => if i = e.1 ∧ j = e.2 then 0 else score i j) with hB
    obtain ⟨hoB, -, -⟩ := hs _ _ (fun i j => if i = e.1 ∧ j = e.2 then 0 else score i j)
    change OneToOne B at hoB
    obtain ⟨l', hl'⟩ := lift (mp := mp) (fp := fp) l (fun x hx =>
      ⟨(mem_metrPos metr x.1).2 (hl.2 x hx).1, (mem_fvcPos fvc thr x.2).2 (hl.2 x hx).2.1⟩)
    have ho' : OneToOne l' := oneToOne_of_map (by rw [hl']; exact hl.1)
    have hopt := optimal hs (fun i j => if i = e.1 ∧ j = e.2 then 0 else score i j) l' ho'
    rw [total_eq_length _ l' (by
      intro x hx
      have hmem : (mp x.1, fp x.2) ∈ l := by rw [← hl']; exact List.mem_map.2 ⟨x, hx, rfl⟩
      rw [if_neg, hse, if_pos]
      · exact (hl.2 _ hmem).2.2
      · rintro ⟨h1, h2⟩
        apply hnot
        rw [← e1, ← e2, ← h1, ← h2]; exact hmem)] at hopt
    have hlen' : l.length = l'.length := by rw [← hl', List.length_map]
    have hBle := optimal hs score B hoB
    have hBge := hmono e B
    rw [← hB] at hopt
    rw [← hA] at hBle
    have hBeq : total (fun i j => if i = e.1 ∧ j = e.2 then 0 else score i j) B = total score A := by omega
    refine ⟨_, (halts _).2 ⟨e, he, hBeq, rfl⟩, ?_⟩
    intro hplace
    obtain ⟨x, hx, f1, f2⟩ := (hpl B hoB _ _).1 hplace
    have hxe : x = e := Prod.ext (hmpi (by rw [f2, e2])) (hfpi (by rw [f1, e1]))
    subst hxe
    have := hstrict x B hx (by rw [hse, e1, e2, if_pos hd])
    omega

/-- C33: two usable positioners with the same identifier raise ValueError. -/
theorem C33_duplicate_ids (lsa : {p q : ℕ} → (Fin p → Fin q → ℕ) → List (Fin p × Fin q)) (fvc : Fin F → FvcRow)
    (metr : Fin M → MetrRow κ) (calib : Fin C → CalibRow κ) (thr fudge : ℝ) (alt : Bool)
    (h : ∃ i i', Positioner metr i ∧ Positioner metr i' ∧ i ≠ i' ∧ (metr i).device = (metr i').device) :
    matchPositioners lsa fvc metr calib thr fudge alt = .error .valueError := by
  obtain ⟨i, i', h1, h2, hne, he⟩ := h
  obtain ⟨k, rfl⟩ := (mem_metrPos metr i).2 h1
  obtain ⟨k', rfl⟩ := (mem_metrPos metr i').2 h2
  have hr : rawArms (fun i => (metr ((metrPos metr).get i)).device) calib fudge = .error .valueError := by
    unfold rawArms
    rw [(C32_key_join _ _).1 (fun hinj => hne (congrArg _ (hinj he)))]
    rfl
  unfold matchPositioners
  dsimp only
  rw [hr]
  rfl

/-- C33 (finding): when no usable spot is closer to a positioner than the largest reach plus
0.1 mm (for instance when there is no usable spot) the routine raises an error (boolean
indexing with an empty array) instead of returning an empty assignment. -/
theorem C33_nothing_in_range (lsa : {p q : ℕ} → (Fin p → Fin q → ℕ) → List (Fin p × Fin q)) (fvc : Fin F → FvcRow)
    (metr : Fin M → MetrRow κ) (calib : Fin C → CalibRow κ) (thr fudge : ℝ) (alt : Bool)
    (h : ∀ j, ¬ Centroid fvc thr j) : ∃ e, matchPositioners lsa fvc metr calib thr fudge alt = .error e := by
  cases hr : matchPositioners lsa fvc metr calib thr fudge alt with
  | error e => exact ⟨e, rfl⟩
  | ok r =>
    exfalso
    unfold matchPositioners at hr
    obtain ⟨raw, hraw, hr⟩ := bind_ok hr
    obtain ⟨arm, harm, hr⟩ := bind_ok hr
    dsimp only at hr
    split at hr
    · cases hr
    rename_i hex
    rw [not_not] at hex
    obtain ⟨i, j, -⟩ := hex
    exact h _ ((mem_fvcPos fvc thr _).1 ⟨j, rfl⟩)

/-- C33: the error is IndexError, when there are positioners and their identifiers differ. -/
theorem C33_nothing_in_range_error (lsa : {p q : ℕ} → (Fin p → Fin q → ℕ) → List (Fin p × Fin q)) (fvc : Fin F → FvcRow)
    (metr : Fin M → MetrRow κ) (calib : Fin C → CalibRow κ) (thr fudge : ℝ) (alt : Bool) (h : ∀ j, ¬ Centroid fvc thr j)
    (h1 : ∃ i, Positioner metr i) (h2 : ∀ i i', Positioner metr i → Positioner metr i' → (metr i).device = (metr i').device → i = i') :
    matchPositioners lsa fvc metr calib thr fudge alt = .error .indexError := by
  have hinj : Function.Injective fun i => (metr ((metrPos metr).get i)).device := by
    intro i i' e
    have := h2 _ _ ((mem_metrPos metr _).1 ⟨i, rfl⟩) ((mem_metrPos metr _).1 ⟨i', rfl⟩) e
    exact get_injective (metrPos_nodup metr) this
  obtain ⟨r, hraw⟩ : ∃ r, rawArms (fun i => (metr ((metrPos metr).get i)).device) calib fudge = .ok r := by
    unfold rawArms
    obtain ⟨ma, mb, e, -⟩ := (C32_key_join (fun i => (metr ((metrPos metr).get i)).device) (fun j => (calib j).pos)).2 hinj
    rw [e]
    exact ⟨_, rfl⟩
  have hp : (metrPos metr).length ≠ 0 := by
    obtain ⟨i, hi⟩ := h1
    obtain ⟨k, -⟩ := (mem_metrPos metr i).2 hi
    have := k.2
    omega
  unfold matchPositioners
  dsimp only
  rw [hraw]
  show (fillArms r >>= _) = _
  unfold fillArms
  dsimp only
  rw [if_neg hp]
  by_cases hnz : ((List.finRange (metrPos metr).length).map r).filter (fun x => decide (x ≠ 0)) = []
  · rw [if_pos hnz]; rfl
  · rw [if_neg hnz]
    show (if _ then _ else _) = _
    rw [if_pos]
    rintro ⟨i, j, -⟩
    exact h _ ((mem_fvcPos fvc thr _).1 ⟨j, rfl⟩)

/-- C33 (finding): an assigned spot need not be within reach of its positioner: the solver
always assigns as many spots as possible, so when nothing is within reach every reported pair
has score 0, and there is at least one as soon as there is a usable spot and a positioner. -/
theorem C33_out_of_reach {lsa : {p q : ℕ} → (Fin p → Fin q → ℕ) → List (Fin p × Fin q)} (hs : Solver lsa)
    {fvc : Fin F → FvcRow} {metr : Fin M → MetrRow κ} {calib : Fin C → CalibRow κ} {thr fudge : ℝ} {alt : Bool}
    {r : Result F M} (h : matchPositioners lsa fvc metr calib thr fudge alt = .ok r)
    (hc : ∃ j, Centroid fvc thr j) (hp : ∃ i, Positioner metr i)
    (hfar : ∀ reach, ReachOf metr calib fudge reach → ∀ i j, Positioner metr i → Centroid fvc thr j →
      reach i ≤ dist2 (metr i).xy (fvc j).xy) :
    ∃ j i, r.ret j = some i ∧ r.scores j = some 0 := by
  obtain ⟨reach, hreach, h1, -, h3, -, h5, -⟩ := C33_assignment hs h
  obtain ⟨j, hj⟩ := hc
  obtain ⟨i, hi⟩ := hp
  obtain ⟨kj, -⟩ := (mem_fvcPos fvc thr j).2 hj
  obtain ⟨ki, -⟩ := (mem_metrPos metr i).2 hi
  have hpos : 0 < countIf r.ret (fun _ _ => True) := by
    rw [h5]; have := kj.isLt; have := ki.isLt; omega
  unfold countIf at hpos
  obtain ⟨j', hj'⟩ := List.exists_mem_of_length_pos hpos
  rw [List.mem_filter] at hj'
  obtain ⟨-, hj'⟩ := hj'
  have hi : ∃ i', r.ret j' = some i' := by
    cases hrj : r.ret j' with
    | none => simp [hrj] at hj'
    | some i' => exact ⟨i', rfl⟩
  obtain ⟨i', hi'⟩ := hi
  refine ⟨j', i', hi', ?_⟩
  rcases h3 j' i' hi' with ⟨hd, -⟩ | ⟨-, hz⟩
  · obtain ⟨c, p⟩ := h1 j' i' hi'
    exact absurd hd (not_lt.2 (hfar reach hreach i' j' p c))
  · exact hz

/-- Optimal assignment solvers exist. -/
theorem solver_exists : ∃ lsa : {p q : ℕ} → (Fin p → Fin q → ℕ) → List (Fin p × Fin q), Solver lsa := by
  have key : ∀ (p q : ℕ) (score : Fin p → Fin q → ℕ), ∃ A : List (Fin p × Fin q), OneToOne A ∧ A.length = min p q ∧
      ∀ l, OneToOne l → l.length = min p q →
      (l.map fun e => score e.1 e.2).sum ≤ (A.map fun e => score e.1 e.2).sum := by
    intro p q score
    have hfin : ({l : List (Fin p × Fin q) | OneToOne l ∧ l.length = min p q}).Finite :=
      (List.finite_length_eq _ (min p q)).subset (fun l hl => hl.2)
    obtain ⟨l0, h1, h2, -⟩ := extend (p := p) (q := q) [] ⟨by simp, by simp⟩
    obtain ⟨A, hA, hmax⟩ := Set.exists_max_image _ (fun l : List (Fin p × Fin q) => (l.map fun e => score e.1 e.2).sum)
      hfin ⟨l0, h1, h2⟩
    exact ⟨A, hA.1, hA.2, fun l h h' => hmax l ⟨h, h'⟩⟩
  exact ⟨fun {p q} score => (key p q score).choose, fun p q score => (key p q score).choose_spec⟩

/-- A successful run: one spot, one positioner. -/
example (lsa : {p q : ℕ} → (Fin p → Fin q → ℕ) → List (Fin p × Fin q)) :
    ∃ r, matchPositioners (F := 1) (M := 1) (C := 1) lsa (fun _ => ⟨0, 100, (1, 0)⟩) (fun _ => ⟨0, (7 : ℕ), (0, 0)⟩)
      (fun _ => ⟨7, 3, 3⟩) 10 0 true = .ok r := by
  set metr : Fin 1 → MetrRow ℕ := fun _ => ⟨0, (7 : ℕ), (0, 0)⟩ with hm
  have hmp : metrPos metr = [0] := by simp [metrPos, hm, List.finRange_succ]
  have hinj : Function.Injective fun i => (metr ((metrPos metr).get i)).device := by
    intro a b _
    have h1 : (metrPos metr).length = 1 := by rw [hmp]; rfl
    have := a.isLt; have := b.isLt
    ext; omega
  have hraw : ∃ raw, rawArms (fun i => (metr ((metrPos metr).get i)).device) (fun _ : Fin 1 => (⟨7, 3, 3⟩ : CalibRow ℕ)) 0 = .ok raw := by
    obtain ⟨ma, mb, e, -⟩ := (C32_key_join (fun i => (metr ((metrPos metr).get i)).device)
      (fun j : Fin 1 => ((fun _ : Fin 1 => (⟨7, 3, 3⟩ : CalibRow ℕ)) j).pos)).2 hinj
    unfold rawArms
    rw [e]
    exact ⟨_, rfl⟩
  obtain ⟨raw, hraw⟩ := hraw
  have hv : ∀ i, raw i = 6 := by
    intro i
    rcases rawArms_spec hraw i with ⟨j, -, -, e⟩ | ⟨hno, -⟩
    · rw [e]; norm_num
    · exact absurd rfl (hno 0)
  let k0 : Fin (metrPos metr).length := ⟨0, by rw [hmp]; simp⟩
  have hfill : fillArms raw = .ok raw := by
    unfold fillArms
    dsimp only
    have hne : ((List.finRange (metrPos metr).length).map raw).filter (· ≠ 0) ≠ [] := by
      apply List.ne_nil_of_mem (a := 6)
      rw [List.mem_filter]
      exact ⟨List.mem_map.2 ⟨k0, List.mem_finRange _, hv _⟩, by simp⟩
    rw [if_neg (by rw [hmp]; simp), if_neg hne]
    congr 1
    funext i
    rw [if_neg (by rw [hv]; norm_num)]
  have hfp : fvcPos (fun _ : Fin 1 => (⟨0, 100, (1, 0)⟩ : FvcRow)) 10 = [0] := by
    simp [fvcPos, List.finRange_succ]
    norm_num
  unfold matchPositioners
  dsimp only
  rw [hraw]
  simp only [bind, Except.bind]
  rw [hfill]
  simp only
  rw [if_neg]
  · exact ⟨_, rfl⟩
  · push Not
    refine ⟨k0, ⟨0, by rw [hfp]; simp⟩, ?_⟩
    have h6 := le_maxArm raw k0
    rw [hv] at h6
    have : dist2 ((0 : ℝ), (0 : ℝ)) (1, 0) = 1 := by unfold dist2; norm_num
    simp only [hm]
    rw [this]
    norm_num
    linarith

end Verif.Props
