import Verif.Model.FvcFit
import Verif.Lemmas.Pos2ptl
import Verif.Lemmas.Sort
import Mathlib.Data.Prod.Lex
import Mathlib.Data.List.GetD
import Mathlib.Data.List.Nodup
import Mathlib.Tactic.Linarith

namespace Verif.Props
open Verif.Py Verif.Model.FvcFit

namespace Ff

/-- Lexicographic order on (LOCATION, PINHOLE_ID). -/
def lexLe (a b : ℤ × ℤ) : Prop := a.1 < b.1 ∨ (a.1 = b.1 ∧ a.2 ≤ b.2)

theorem lexLe_antisymm {a b : ℤ × ℤ} (h1 : lexLe a b) (h2 : lexLe b a) : a = b := by
  unfold lexLe at *
  ext <;> omega

/-- A spot used as a fiducial. -/
def isFid (s : Spot) : Prop := 0 ≤ s.loc ∧ 0 < s.pin

/-- Spot and metrology entry of the same pinhole. -/
def same (s : Spot) (m : Metro) : Prop := s.loc = m.loc ∧ s.pin = m.pin

instance : DecidablePred isFid := fun s => by unfold isFid; infer_instance

instance : ∀ s m, Decidable (same s m) := fun s m => by unfold same; infer_instance

def sk (s : Spot) : ℤ × ℤ := (s.loc, s.pin)
def mk (m : Metro) : ℤ × ℤ := (m.loc, m.pin)

/-- What is assumed of the table sorts. -/
structure SortOk (sortS : List Spot → List Spot) (sortM : List Metro → List Metro) : Prop where
  permS : ∀ l, (sortS l).Perm l
  permM : ∀ l, (sortM l).Perm l
  ordS : ∀ l, (sortS l).Pairwise fun a b => lexLe (sk a) (sk b)
  ordM : ∀ l, (sortM l).Pairwise fun a b => lexLe (mk a) (mk b)

/-- What is assumed of `np.argsort`. -/
structure ArgsortOk (argsort : List ℤ → List ℕ) : Prop where
  perm : ∀ l, (argsort l).Perm (List.range l.length)
  ord : ∀ l, ((argsort l).map fun i => l.getD i 0).Pairwise (· ≤ ·)

theorem assertEq_ok (a b : List ℤ) : assertEq a b = .ok () ↔
    a = b ∨ (∃ x, a = [x] ∧ b.length ≠ 1 ∧ ∀ y ∈ b, y = x) ∨ (∃ y, b = [y] ∧ a.length ≠ 1 ∧ ∀ x ∈ a, x = y) := by
  have hcore : assertEq a b = .ok () ↔ ∃ l, bcast2 (fun x y => decide (x = y)) a b = .ok l ∧ l.all id = true := by
    unfold assertEq allEq
    cases h : bcast2 (fun x y : ℤ => decide (x = y)) a b with
    | error e => simp [bind, Except.bind]
    | ok l =>
      by_cases hl : l.all id = true
      · simp only [bind, Except.bind, pure, Except.pure, hl, if_true]
        exact ⟨fun _ => ⟨l, rfl, hl⟩, fun _ => trivial⟩
      · simp only [bind, Except.bind, pure, Except.pure, hl]
        constructor
        · intro h; cases h
        · rintro ⟨l', h1, h2⟩
          injection h1 with h1
          subst h1
          exact absurd h2 hl
  rw [hcore]
  unfold bcast2
  by_cases hlen : a.length = b.length
  · rw [if_pos hlen]
    have hz : (List.zipWith (fun x y : ℤ => decide (x = y)) a b).all id = true ↔ a = b := by
      clear hcore
      induction a generalizing b with
      | nil =>
        cases b with
        | nil => simp
        | cons y b => simp at hlen
      | cons x a ih =>
        cases b with
        | nil => simp at hlen
        | cons y b =>
          simp only [List.zipWith_cons_cons, List.all_cons, id_eq, Bool.and_eq_true, decide_eq_true_eq, List.cons.injEq]
          rw [ih b (by simpa using hlen)]
    constructor
    · rintro ⟨l, h1, h2⟩
      injection h1 with h1
      subst h1
      exact Or.inl (hz.1 h2)
    · rintro (h | ⟨x, rfl, h1, -⟩ | ⟨y, rfl, h1, -⟩)
      · exact ⟨_, rfl, hz.2 h⟩
      · exact absurd hlen.symm h1
      · exact absurd hlen h1
  · rw [if_neg hlen]
    have hne : a ≠ b := fun h => hlen (by rw [h])
    rcases a with _ | ⟨x, _ | ⟨x', a⟩⟩ <;> rcases b with _ | ⟨y, _ | ⟨y', b⟩⟩
    all_goals try (simp at hlen; done)
    · simp
    · simp
    · simp only [List.map_nil]
      constructor
      · intro _; exact Or.inr (Or.inl ⟨x, rfl, by simp, by simp⟩)
      · intro _; exact ⟨_, rfl, rfl⟩
    · constructor
      · rintro ⟨l, h1, h2⟩
        injection h1 with h1
        subst h1
        refine Or.inr (Or.inl ⟨x, rfl, by simp, ?_⟩)
        intro z hz
        rw [List.all_eq_true] at h2
        have := h2 (decide (x = z)) (List.mem_map.2 ⟨z, hz, rfl⟩)
        have h3 : x = z := by simpa using this
        exact h3.symm
      · rintro (h | ⟨z, h, -, h2⟩ | ⟨z, h, -⟩)
        · exact absurd h hne
        · simp only [List.cons.injEq, and_true] at h
          subst h
          refine ⟨_, rfl, ?_⟩
          rw [List.all_eq_true]
          intro b hb
          obtain ⟨z, hz, rfl⟩ := List.mem_map.1 hb
          simp [h2 z hz]
        · simp at h
    · simp
    · constructor
      · rintro ⟨l, h1, h2⟩
        injection h1 with h1
        subst h1
        refine Or.inr (Or.inr ⟨y, rfl, by simp, ?_⟩)
        intro z hz
        rw [List.all_eq_true] at h2
        have := h2 (decide (z = y)) (List.mem_map.2 ⟨z, hz, rfl⟩)
        simpa using this
      · rintro (h | ⟨z, h, -⟩ | ⟨z, h, -, h2⟩)
        · exact absurd h hne
        · simp at h
        · simp only [List.cons.injEq, and_true] at h
          subst h
          refine ⟨_, rfl, ?_⟩
          rw [List.all_eq_true]
          intro b hb
          obtain ⟨z, hz, rfl⟩ := List.mem_map.1 hb
          simp [h2 z hz]
    · simp
      rintro rfl rfl rfl
      exact hne rfl

theorem assertEq_of_eq (a b : List ℤ) (h : a = b) : assertEq a b = .ok () := (assertEq_ok a b).2 (Or.inl h)

/-- The fiducial spots. -/
def fids (spots : List Spot) : List Spot := spots.filter fun s => decide (0 ≤ s.loc) && decide (0 < s.pin)

theorem mem_fids (spots : List Spot) (s : Spot) : s ∈ fids spots ↔ s ∈ spots ∧ isFid s := by
  unfold fids isFid
  simp

/-- The metrology entries with the key of a fiducial spot. -/
def sel (spots : List Spot) (metrology : List Metro) : List Metro :=
  metrology.filter fun m => decide (pinloc m.loc m.pin ∈ (fids spots).map fun s => pinloc s.loc s.pin)

theorem mem_sel (spots : List Spot) (metrology : List Metro) (m : Metro) :
    m ∈ sel spots metrology ↔ m ∈ metrology ∧ ∃ s ∈ spots, isFid s ∧ pinloc s.loc s.pin = pinloc m.loc m.pin := by
  unfold sel
  rw [List.mem_filter]
  simp only [decide_eq_true_eq, List.mem_map, mem_fids]
  exact and_congr Iff.rfl (exists_congr fun s => by tauto)

theorem split_map (l l' : List (ℤ × ℤ)) (h1 : l.map Prod.fst = l'.map Prod.fst)
    (h2 : l.map Prod.snd = l'.map Prod.snd) : l = l' := by
  induction l generalizing l' with
  | nil => cases l' <;> simp_all
  | cons a l ih =>
    cases l' with
    | nil => simp at h1
    | cons b l' =>
      simp only [List.map_cons, List.cons.injEq] at h1 h2
      rw [ih l' h1.2 h2.2, Prod.ext h1.1 h2.1]

theorem pair_core (sortS : List Spot → List Spot) (sortM : List Metro → List Metro) (hs : SortOk sortS sortM)
    (spots : List Spot) (metrology : List Metro) (hn : ((fids spots).map sk).Nodup) (hm : (metrology.map mk).Nodup)
    (hl : (fids spots).length ≠ 1) (r : List Spot × List Metro) :
    pairUp sortS sortM spots metrology = .ok r ↔
      r = (sortS (fids spots), sortM (sel spots metrology)) ∧
        (sortS (fids spots)).map sk = (sortM (sel spots metrology)).map mk := by
  have hp : pairUp sortS sortM spots metrology = (do
      assertEq ((sortS (fids spots)).map Spot.loc) ((sortM (sel spots metrology)).map Metro.loc)
      assertEq ((sortS (fids spots)).map Spot.pin) ((sortM (sel spots metrology)).map Metro.pin)
      return (sortS (fids spots), sortM (sel spots metrology))) := rfl
  rw [hp]
  generalize hA : sortS (fids spots) = A
  generalize hB : sortM (sel spots metrology) = B
  have hAn : (A.map sk).Nodup := by rw [← hA]; exact ((hs.permS _).map sk).nodup_iff.2 hn
  have hBn : (B.map mk).Nodup := by
    rw [← hB]
    exact ((hs.permM _).map mk).nodup_iff.2 (hm.sublist (List.filter_sublist.map mk))
  have hAl : A.length ≠ 1 := by rw [← hA, (hs.permS _).length_eq]; exact hl
  have hBA : A = [] → B = [] := by
    intro h
    rw [← hA] at h
    have h0 : fids spots = [] := by
      have := (hs.permS (fids spots)).length_eq
      rw [h] at this
      exact List.eq_nil_of_length_eq_zero this.symm
    rw [← hB]
    have : sel spots metrology = [] := by
      unfold sel; rw [h0]; simp
    rw [this]
    exact List.eq_nil_of_length_eq_zero (by rw [(hs.permM _).length_eq]; rfl)
  have e1 : A.map Spot.loc = (A.map sk).map Prod.fst := by rw [List.map_map]; rfl
  have e2 : A.map Spot.pin = (A.map sk).map Prod.snd := by rw [List.map_map]; rfl
  have e3 : B.map Metro.loc = (B.map mk).map Prod.fst := by rw [List.map_map]; rfl
  have e4 : B.map Metro.pin = (B.map mk).map Prod.snd := by rw [List.map_map]; rfl
  constructor
  · intro h
    obtain ⟨u, h1, h⟩ := Lemmas.bind_ok h
    obtain ⟨u', h2, h⟩ := Lemmas.bind_ok h
    simp only [pure, Except.pure, Except.ok.injEq] at h
    refine ⟨h.symm, ?_⟩
    have h1' := (assertEq_ok _ _).1 h1
    have h2' := (assertEq_ok _ _).1 h2
    have g1 : A.map Spot.loc = B.map Metro.loc ∧ A.map Spot.pin = B.map Metro.pin := by
      by_cases hBl : B.length = 1
      · exfalso
        have hA2 : ∃ a a' l, A = a :: a' :: l := by
          rcases A with _ | ⟨a, _ | ⟨a', l⟩⟩
          · rw [hBA rfl] at hBl; simp at hBl
          · simp at hAl
          · exact ⟨a, a', l, rfl⟩
        obtain ⟨a, a', l, rfl⟩ := hA2
        obtain ⟨m, rfl⟩ := List.length_eq_one_iff.1 hBl
        have f1 : a.loc = a'.loc := by
          rcases h1' with h | ⟨x, h, -⟩ | ⟨y, -, -, h⟩
          · simp at h
          · simp at h
          · rw [h a.loc (by simp), h a'.loc (by simp)]
        have f2 : a.pin = a'.pin := by
          rcases h2' with h | ⟨x, h, -⟩ | ⟨y, -, -, h⟩
          · simp at h
          · simp at h
          · rw [h a.pin (by simp), h a'.pin (by simp)]
        have := (List.nodup_cons.1 hAn).1
        exact this (by simp [sk, f1, f2])
      · refine ⟨?_, ?_⟩
        · rcases h1' with h | ⟨x, h, -⟩ | ⟨y, h, -, -⟩
          · exact h
          · exact absurd (by simpa using congrArg List.length h) hAl
          · exact absurd (by simpa using congrArg List.length h) hBl
        · rcases h2' with h | ⟨x, h, -⟩ | ⟨y, h, -, -⟩
          · exact h
          · exact absurd (by simpa using congrArg List.length h) hAl
          · exact absurd (by simpa using congrArg List.length h) hBl
    rw [e1, e2, e3, e4] at g1
    exact split_map _ _ g1.1 g1.2
  · rintro ⟨rfl, h⟩
    rw [assertEq_of_eq _ _ (by rw [e1, e3, h]), assertEq_of_eq _ _ (by rw [e2, e4, h])]
    rfl

theorem eq_iff_sets (sortS : List Spot → List Spot) (sortM : List Metro → List Metro) (hs : SortOk sortS sortM)
    (spots : List Spot) (metrology : List Metro) (hn : ((fids spots).map sk).Nodup) (hm : (metrology.map mk).Nodup) :
    (sortS (fids spots)).map sk = (sortM (sel spots metrology)).map mk ↔
      ∀ k, k ∈ (fids spots).map sk ↔ k ∈ (sel spots metrology).map mk := by
  have hmn : ((sel spots metrology).map mk).Nodup := hm.sublist (List.filter_sublist.map mk)
  constructor
  · intro h k
    rw [← ((hs.permS (fids spots)).map sk).mem_iff, h, ((hs.permM (sel spots metrology)).map mk).mem_iff]
  · intro h
    refine List.Perm.eq_of_pairwise (le := lexLe) (fun a b _ _ => lexLe_antisymm) ?_ ?_ ?_
    · rw [List.pairwise_map]; exact hs.ordS _
    · rw [List.pairwise_map]; exact hs.ordM _
    · refine ((hs.permS _).map sk).trans ((List.Perm.trans ?_ ((hs.permM _).map mk).symm))
      exact (List.perm_ext_iff_of_nodup hn hmn).2 h

end Ff

open Ff in
/-- The pairing of spots and metrology in `FVC2FP.fit` (each pinhole at most once in either table, not
exactly one fiducial spot): it succeeds exactly when every fiducial spot has a metrology entry with
its own LOCATION and PINHOLE_ID and no entry of another pinhole has the key of a fiducial spot. -/
theorem C36_pairing (sortS : List Spot → List Spot) (sortM : List Metro → List Metro) (hs : SortOk sortS sortM)
    (spots : List Spot) (metrology : List Metro) (hn : ((fids spots).map fun s => (s.loc, s.pin)).Nodup)
    (hm : (metrology.map fun m => (m.loc, m.pin)).Nodup) (hl : (fids spots).length ≠ 1) :
    (∃ r, pairUp sortS sortM spots metrology = .ok r) ↔
      (∀ s ∈ spots, isFid s → ∃ m ∈ metrology, same s m) ∧
      ∀ m ∈ metrology, ∀ s ∈ spots, isFid s → s.loc * 10 + s.pin = m.loc * 10 + m.pin →
        ∃ s' ∈ spots, isFid s' ∧ same s' m := by
  simp only [pair_core sortS sortM hs spots metrology hn hm hl]
  have : (∃ r, r = (sortS (fids spots), sortM (sel spots metrology)) ∧
      (sortS (fids spots)).map sk = (sortM (sel spots metrology)).map mk) ↔
      (sortS (fids spots)).map sk = (sortM (sel spots metrology)).map mk :=
    ⟨fun ⟨_, _, h⟩ => h, fun h => ⟨_, rfl, h⟩⟩
  rw [this, eq_iff_sets sortS sortM hs spots metrology hn hm]
  constructor
  · intro h
    constructor
    · intro s hsp hf
      obtain ⟨m, hmm, he⟩ := List.mem_map.1 ((h (sk s)).1 (List.mem_map.2 ⟨s, (mem_fids _ _).2 ⟨hsp, hf⟩, rfl⟩))
      have he' := Prod.ext_iff.1 he
      exact ⟨m, ((mem_sel _ _ _).1 hmm).1, he'.1.symm, he'.2.symm⟩
    · intro m hmm s hsp hf hk
      have := (h (mk m)).2 (List.mem_map.2 ⟨m, (mem_sel _ _ _).2 ⟨hmm, s, hsp, hf, hk⟩, rfl⟩)
      obtain ⟨s', hs', he⟩ := List.mem_map.1 this
      have he' := Prod.ext_iff.1 he
      obtain ⟨q1, q2⟩ := (mem_fids _ _).1 hs'
      exact ⟨s', q1, q2, he'.1, he'.2⟩
  · rintro ⟨h1, h2⟩ k
    constructor
    · intro hk
      obtain ⟨s, hsf, rfl⟩ := List.mem_map.1 hk
      obtain ⟨q1, q2⟩ := (mem_fids _ _).1 hsf
      obtain ⟨m, hmm, e1, e2⟩ := h1 s q1 q2
      exact List.mem_map.2 ⟨m, (mem_sel _ _ _).2 ⟨hmm, s, q1, q2, by rw [e1, e2]⟩, by unfold mk sk; rw [e1, e2]⟩
    · intro hk
      obtain ⟨m, hms, rfl⟩ := List.mem_map.1 hk
      obtain ⟨q1, s, hsp, hf, hkey⟩ := (mem_sel _ _ _).1 hms
      obtain ⟨s', r1, r2, e1, e2⟩ := h2 m q1 s hsp hf hkey
      exact List.mem_map.2 ⟨s', (mem_fids _ _).2 ⟨r1, r2⟩, by unfold mk sk; rw [e1, e2]⟩

open Ff in
/-- When it succeeds, the two lists passed to the fit contain every fiducial spot once, in the same
order as their own metrology entries. -/
theorem C36_pairs (sortS : List Spot → List Spot) (sortM : List Metro → List Metro) (hs : SortOk sortS sortM)
    (spots : List Spot) (metrology : List Metro) (hn : ((fids spots).map fun s => (s.loc, s.pin)).Nodup)
    (hm : (metrology.map fun m => (m.loc, m.pin)).Nodup) (hl : (fids spots).length ≠ 1)
    (fid : List Spot) (met : List Metro) (h : pairUp sortS sortM spots metrology = .ok (fid, met)) :
    List.Forall₂ same fid met ∧ fid.Perm (spots.filter fun s => decide (isFid s)) ∧
      met.Subperm metrology := by
  obtain ⟨e, h'⟩ := (pair_core sortS sortM hs spots metrology hn hm hl _).1 h
  clear h
  rename' h' => h
  obtain ⟨rfl, rfl⟩ := Prod.ext_iff.1 e
  refine ⟨?_, ?_, ?_⟩
  · dsimp only
    generalize sortS (fids spots) = A at h
    generalize sortM (sel spots metrology) = B at h
    clear e hn hm hl
    induction A generalizing B with
    | nil => cases B with
      | nil => exact .nil
      | cons b B => simp at h
    | cons a A ih => cases B with
      | nil => simp at h
      | cons b B =>
        simp only [List.map_cons, List.cons.injEq] at h
        have := Prod.ext_iff.1 h.1
        exact .cons ⟨this.1, this.2⟩ (ih B h.2)
  · refine (hs.permS _).trans ?_
    unfold fids
    refine List.Perm.of_eq (List.filter_congr fun s _ => ?_)
    unfold isFid
    by_cases h1 : 0 ≤ s.loc <;> by_cases h2 : 0 < s.pin <;> simp [h1, h2]
  · exact (hs.permM _).subperm.trans List.filter_sublist.subperm

open Ff in
/-- Keys are unambiguous when the pinhole numbers in use differ in their last digit, as those of the
metrology (0 to 9) and those of `spotmatch` centres (0 and 99) do: then the pairing succeeds exactly
when every fiducial spot has a metrology entry. -/
theorem C36_last_digit (sortS : List Spot → List Spot) (sortM : List Metro → List Metro) (hs : SortOk sortS sortM)
    (spots : List Spot) (metrology : List Metro) (hn : ((fids spots).map fun s => (s.loc, s.pin)).Nodup)
    (hm : (metrology.map fun m => (m.loc, m.pin)).Nodup) (hl : (fids spots).length ≠ 1)
    (S : Set ℤ) (hS : ∀ p ∈ S, ∀ q ∈ S, p % 10 = q % 10 → p = q) (hsS : ∀ s ∈ spots, isFid s → s.pin ∈ S)
    (hmS : ∀ m ∈ metrology, m.pin ∈ S) :
    (∃ r, pairUp sortS sortM spots metrology = .ok r) ↔ ∀ s ∈ spots, isFid s → ∃ m ∈ metrology, same s m := by
  rw [C36_pairing sortS sortM hs spots metrology hn hm hl]
  refine ⟨fun h => h.1, fun h => ⟨h, fun m hmm s hsp hf hk => ⟨s, hsp, hf, ?_⟩⟩⟩
  have := hS s.pin (hsS s hsp hf) m.pin (hmS m hmm) (by omega)
  exact ⟨by omega, this⟩

open Ff in
/-- Finding: with pinhole number 10 (as `spotmatch` numbers pinholes) the key of a spot is also that of
the positioner at the next LOCATION, and the fit stops with an exception (2 against 3 entries) although every
spot has its metrology entry. -/
theorem C36_collision (sortS : List Spot → List Spot) (sortM : List Metro → List Metro) (hs : SortOk sortS sortM)
    (L : ℤ) (hL : 0 ≤ L) (x y : ℝ) (c d : ℝ × ℝ × ℝ) :
    pairUp sortS sortM [⟨L, 10, x, y⟩, ⟨L + 5, 10, x, y⟩]
      [⟨L, 10, c.1, c.2.1, c.2.2⟩, ⟨L + 1, 0, d.1, d.2.1, d.2.2⟩, ⟨L + 5, 10, c.1, c.2.1, c.2.2⟩] = .error .valueError := by
  have hf : fids [⟨L, 10, x, y⟩, ⟨L + 5, 10, x, y⟩] = [⟨L, 10, x, y⟩, ⟨L + 5, 10, x, y⟩] := by
    unfold fids
    have : 0 ≤ L + 5 := by omega
    simp [hL, this]
  have hse : sel [⟨L, 10, x, y⟩, ⟨L + 5, 10, x, y⟩]
      [⟨L, 10, c.1, c.2.1, c.2.2⟩, ⟨L + 1, 0, d.1, d.2.1, d.2.2⟩, ⟨L + 5, 10, c.1, c.2.1, c.2.2⟩] =
      [⟨L, 10, c.1, c.2.1, c.2.2⟩, ⟨L + 1, 0, d.1, d.2.1, d.2.2⟩, ⟨L + 5, 10, c.1, c.2.1, c.2.2⟩] := by
    unfold sel
    rw [hf]
    refine List.filter_eq_self.2 ?_
    intro m hm
    simp only [List.map_cons, List.map_nil, pinloc, decide_eq_true_eq, List.mem_cons, List.not_mem_nil, or_false] at hm ⊢
    rcases hm with rfl | rfl | rfl
    · left; rfl
    · left; dsimp only; ring
    · right; rfl
  have hp : pairUp sortS sortM [⟨L, 10, x, y⟩, ⟨L + 5, 10, x, y⟩]
      [⟨L, 10, c.1, c.2.1, c.2.2⟩, ⟨L + 1, 0, d.1, d.2.1, d.2.2⟩, ⟨L + 5, 10, c.1, c.2.1, c.2.2⟩] = (do
      assertEq ((sortS (fids [⟨L, 10, x, y⟩, ⟨L + 5, 10, x, y⟩])).map Spot.loc) ((sortM (sel [⟨L, 10, x, y⟩, ⟨L + 5, 10, x, y⟩]
      [⟨L, 10, c.1, c.2.1, c.2.2⟩, ⟨L + 1, 0, d.1, d.2.1, d.2.2⟩, ⟨L + 5, 10, c.1, c.2.1, c.2.2⟩])).map Metro.loc)
      assertEq ((sortS (fids [⟨L, 10, x, y⟩, ⟨L + 5, 10, x, y⟩])).map Spot.pin) ((sortM (sel [⟨L, 10, x, y⟩, ⟨L + 5, 10, x, y⟩]
      [⟨L, 10, c.1, c.2.1, c.2.2⟩, ⟨L + 1, 0, d.1, d.2.1, d.2.2⟩, ⟨L + 5, 10, c.1, c.2.1, c.2.2⟩])).map Metro.pin)
      return (sortS (fids [⟨L, 10, x, y⟩, ⟨L + 5, 10, x, y⟩]), sortM (sel [⟨L, 10, x, y⟩, ⟨L + 5, 10, x, y⟩]
      [⟨L, 10, c.1, c.2.1, c.2.2⟩, ⟨L + 1, 0, d.1, d.2.1, d.2.2⟩, ⟨L + 5, 10, c.1, c.2.1, c.2.2⟩]))) := rfl
  rw [hp, hf, hse]
  have l1 := (hs.permS [⟨L, 10, x, y⟩, ⟨L + 5, 10, x, y⟩]).length_eq
  have l2 := (hs.permM [⟨L, 10, c.1, c.2.1, c.2.2⟩, ⟨L + 1, 0, d.1, d.2.1, d.2.2⟩, ⟨L + 5, 10, c.1, c.2.1, c.2.2⟩]).length_eq
  generalize sortS [⟨L, 10, x, y⟩, ⟨L + 5, 10, x, y⟩] = A at l1
  generalize sortM [⟨L, 10, c.1, c.2.1, c.2.2⟩, ⟨L + 1, 0, d.1, d.2.1, d.2.2⟩, ⟨L + 5, 10, c.1, c.2.1, c.2.2⟩] = B at l2
  rcases A with _ | ⟨a, _ | ⟨a', _ | ⟨a'', A⟩⟩⟩
  all_goals simp at l1
  rcases B with _ | ⟨b, _ | ⟨b', _ | ⟨b'', _ | ⟨b3, B⟩⟩⟩⟩
  all_goals simp at l2
  rfl

namespace Ff

theorem getIdx_ok {α : Type} (l : List α) (i : ℕ) (h : i < l.length) : getIdx l i = .ok l[i] := by
  unfold getIdx; rw [List.getElem?_eq_getElem h]

theorem mapM_getIdx {α : Type} (d : α) (l : List α) (is : List ℕ) (h : ∀ i ∈ is, i < l.length) :
    is.mapM (getIdx l) = .ok (is.map fun i => l.getD i d) := by
  induction is with
  | nil => rfl
  | cons i is ih =>
    rw [List.mapM_cons, getIdx_ok l i (h i (by simp)), ih fun j hj => h j (by simp [hj])]
    rw [List.map_cons, List.getD_eq_getElem _ _ (h i (by simp))]
    rfl

/-- An index list that is a permutation of all indices just permutes the list. -/
theorem perm_map_getD (l : List ℤ) (is : List ℕ) (h : is.Perm (List.range l.length)) :
    (is.map fun i => l.getD i 0).Perm l := by
  refine (h.map _).trans (List.Perm.of_eq ?_)
  apply List.ext_getElem
  · simp
  · intro i h1 h2
    simp only [List.getElem_map, List.getElem_range]
    exact List.getD_eq_getElem _ _ h2

theorem sort_unique (l l' : List ℤ) (h : l.Perm l') (h1 : l.Pairwise (· ≤ ·)) (h2 : l'.Pairwise (· ≤ ·)) : l = l' :=
  h.eq_of_pairwise (fun _ _ _ _ ha hb => le_antisymm ha hb) h1 h2

/-- The double argsort. -/
theorem double_argsort (argsort : List ℤ → List ℕ) (ha : ArgsortOk argsort) (K M : List ℤ) (hp : M.Perm K) :
    ∃ kk, (argsort ((argsort K).map Int.ofNat)).mapM (getIdx (argsort M)) = .ok kk ∧ kk.length = K.length ∧
      (∀ k ∈ kk, k < M.length) ∧ kk.map (fun k => M.getD k 0) = K ∧ kk.Nodup := by
  set a := argsort K with hadef
  set b := argsort (a.map Int.ofNat) with hb
  set j := argsort M with hj
  have hal : a.length = K.length := by rw [hadef, (ha.perm K).length_eq, List.length_range]
  have hbp : b.Perm (List.range K.length) := by
    rw [hb]; refine (ha.perm _).trans (List.Perm.of_eq ?_); rw [List.length_map, hal]
  have hbl : b.length = K.length := by rw [hbp.length_eq, List.length_range]
  have hjl : j.length = K.length := by rw [hj, (ha.perm M).length_eq, List.length_range, hp.length_eq]
  have hbm : ∀ i ∈ b, i < K.length := fun i hi => List.mem_range.1 (hbp.subset hi)
  have e1 : b.map (fun i => (a.map Int.ofNat).getD i 0) = (List.range K.length).map Int.ofNat := by
    refine sort_unique _ _ ?_ (ha.ord _) ?_
    · refine (perm_map_getD (a.map Int.ofNat) b (by rw [List.length_map, hal]; exact hbp)).trans ?_
      exact (ha.perm K).map _
    · rw [List.pairwise_map]
      exact List.pairwise_lt_range.imp fun h => by simpa using h.le
  have e2 : a.map (fun i => K.getD i 0) = j.map (fun i => M.getD i 0) := by
    refine sort_unique _ _ ?_ (ha.ord _) (ha.ord _)
    exact (perm_map_getD K a (ha.perm K)).trans ((perm_map_getD M j (ha.perm M)).trans hp).symm
  refine ⟨b.map fun i => j.getD i 0, mapM_getIdx 0 j b (by rw [hjl]; exact hbm), by simp [hbl], ?_, ?_, ?_⟩
  · intro k hk
    obtain ⟨i, hi, rfl⟩ := List.mem_map.1 hk
    rw [List.getD_eq_getElem _ _ (by rw [hjl]; exact hbm i hi)]
    exact List.mem_range.1 ((ha.perm M).subset (List.getElem_mem _))
  · rw [List.map_map]
    apply List.ext_getElem
    · simp [hbl]
    · intro i h1 h2
      have hib : i < b.length := by rw [hbl]; exact h2
      have hbi : b[i] < K.length := hbm _ (List.getElem_mem _)
      simp only [List.getElem_map, Function.comp_apply]
      have q1 : (a.map Int.ofNat).getD b[i] 0 = Int.ofNat i := by
        have := congrArg (fun l => l.getD i 0) e1
        rw [List.getD_eq_getElem _ _ (by simpa using hib), List.getD_eq_getElem _ _ (by simpa using h2)] at this
        simpa using this
      have q2 : a.getD b[i] 0 = i := by
        rw [List.getD_eq_getElem _ _ (by simpa [hal] using hbi)] at q1
        rw [List.getD_eq_getElem _ _ (by simpa [hal] using hbi)]
        simpa using q1
      have q3 := congrArg (fun l => l.getD b[i] 0) e2
      rw [List.getD_eq_getElem _ _ (by simpa [hal] using hbi), List.getD_eq_getElem _ _ (by simpa [hjl] using hbi)] at q3
      simp only [List.getElem_map] at q3
      rw [List.getD_eq_getElem j _ (by rw [hjl]; exact hbi), ← q3]
      rw [List.getD_eq_getElem a _ (by rw [hal]; exact hbi)] at q2
      rw [q2, List.getD_eq_getElem _ _ h2]
  · have hjn : j.Nodup := (ha.perm M).nodup_iff.2 List.nodup_range
    have hbn : b.Nodup := hbp.nodup_iff.2 List.nodup_range
    refine hbn.map_on ?_
    intro x hx y hy hxy
    have hx' : x < j.length := by rw [hjl]; exact hbm x hx
    have hy' : y < j.length := by rw [hjl]; exact hbm y hy
    rw [List.getD_eq_getElem _ _ hx', List.getD_eq_getElem _ _ hy'] at hxy
    exact (List.Nodup.getElem_inj_iff hjn).1 hxy

/-- The metrology coordinates of a spot: zero unless it is a fiducial. -/
noncomputable def entry (metrology : List Metro) (s : Spot) : ℝ × ℝ × ℝ :=
  if isFid s then
    match metrology.find? (fun m => decide (same s m)) with
    | some m => (m.x, m.y, m.z)
    | none => (0, 0, 0)
  else (0, 0, 0)

theorem fill_map (g : Spot → Metro) (spots : List Spot) (h0 : ∀ s ∈ spots, s.loc ≠ 0) :
    fill spots ((fids spots).map g) =
      spots.map fun s => if isFid s then ((g s).x, (g s).y, (g s).z) else (0, 0, 0) := by
  induction spots with
  | nil => rfl
  | cons s l ih =>
    have hs := h0 s (by simp)
    have ih := ih fun s hs => h0 s (by simp [hs])
    by_cases hf : isFid s
    · have h1 : 0 < s.loc ∧ 0 < s.pin := by unfold isFid at hf; omega
      have h2 : fids (s :: l) = s :: fids l := by
        unfold fids; rw [List.filter_cons_of_pos]
        unfold isFid at hf; simp [hf.1, hf.2]
      rw [h2, List.map_cons]
      unfold fill
      rw [if_pos h1, List.map_cons, if_pos hf, ← ih]
    · have h1 : ¬ (0 < s.loc ∧ 0 < s.pin) := by unfold isFid at hf; omega
      have h2 : fids (s :: l) = fids l := by
        unfold fids; rw [List.filter_cons_of_neg]
        unfold isFid at hf
        intro h
        simp only [Bool.and_eq_true, decide_eq_true_eq] at h
        exact hf h
      rw [h2]
      unfold fill
      rw [if_neg h1, List.map_cons, if_neg hf, ih]

theorem find_unique (metrology : List Metro) (hm : (metrology.map mk).Nodup) (m : Metro) (hmm : m ∈ metrology) (s : Spot)
    (h : same s m) : metrology.find? (fun m => decide (same s m)) = some m := by
  cases hf : metrology.find? (fun m => decide (same s m)) with
  | none =>
    have := List.find?_eq_none.1 hf m hmm
    simp [h] at this
  | some m' =>
    have h1 := List.mem_of_find?_eq_some hf
    have h2 : same s m' := by simpa using List.find?_some hf
    congr 1
    refine List.inj_on_of_nodup_map hm h1 hmm ?_
    unfold mk same at *
    rw [← h2.1, ← h2.2, h.1, h.2]

end Ff

open Ff in
/-- `update_spots` (pinhole keys of the fiducial spots unambiguous, LOCATION 0 not used): once the
pairing has succeeded, the columns X_FP_METRO, Y_FP_METRO, Z_FP_METRO can always be filled, each
fiducial row with the coordinates of its own pinhole and every other row with zeros, rows in place. -/
theorem C36_update (sortS : List Spot → List Spot) (sortM : List Metro → List Metro) (hs : SortOk sortS sortM)
    (argsort : List ℤ → List ℕ) (ha : ArgsortOk argsort)
    (spots : List Spot) (metrology : List Metro) (hn : ((fids spots).map fun s => (s.loc, s.pin)).Nodup)
    (hm : (metrology.map fun m => (m.loc, m.pin)).Nodup) (hl : (fids spots).length ≠ 1)
    (h0 : ∀ s ∈ spots, s.loc ≠ 0)
    (hkey : ∀ s ∈ spots, isFid s → ∀ s' ∈ spots, isFid s' → s.loc * 10 + s.pin = s'.loc * 10 + s'.pin →
      s.loc = s'.loc ∧ s.pin = s'.pin)
    (fid : List Spot) (met : List Metro) (h : pairUp sortS sortM spots metrology = .ok (fid, met)) :
    ∃ ms, reorder argsort spots met = .ok ms ∧ fill spots ms = spots.map (entry metrology) := by
  obtain ⟨e, heq⟩ := (pair_core sortS sortM hs spots metrology hn hm hl _).1 h
  obtain ⟨e1, e2⟩ := Prod.ext_iff.1 e
  dsimp only at e1 e2
  rw [← e1, ← e2] at heq
  have hfid : fid.Perm (fids spots) := by rw [e1]; exact hs.permS _
  have hmet : met.Perm (sel spots metrology) := by rw [e2]; exact hs.permM _
  have hff : (spots.filter fun s => decide (0 < s.loc) && decide (0 < s.pin)) = fids spots := by
    unfold fids
    refine List.filter_congr fun s hsm => ?_
    have := h0 s hsm
    by_cases h1 : 0 < s.loc
    · have h2 : 0 ≤ s.loc := h1.le
      simp [h1, h2]
    · have h2 : ¬ 0 ≤ s.loc := by omega
      simp [h1, h2]
  have hKM : (met.map fun m => pinloc m.loc m.pin).Perm ((fids spots).map fun s => pinloc s.loc s.pin) := by
    have : (met.map fun m => pinloc m.loc m.pin) = fid.map fun s => pinloc s.loc s.pin := by
      have := congrArg (List.map fun p : ℤ × ℤ => pinloc p.1 p.2) heq
      rw [List.map_map, List.map_map] at this
      exact this.symm
    rw [this]
    exact hfid.map _
  obtain ⟨kk, g1, g2, g3, g4, -⟩ := double_argsort argsort ha _ _ hKM
  have g3' : ∀ k ∈ kk, k < met.length := by simpa using g3
  -- the metrology entry of a fiducial spot
  have hex : ∀ s ∈ fids spots, ∃ m ∈ met, same s m := by
    intro s hsf
    have : sk s ∈ met.map mk := by rw [← heq]; exact List.mem_map.2 ⟨s, hfid.symm.subset hsf, rfl⟩
    obtain ⟨m, hmm, hmk⟩ := List.mem_map.1 this
    have := Prod.ext_iff.1 hmk
    exact ⟨m, hmm, this.1.symm, this.2.symm⟩
  have hmemm : ∀ m ∈ met, m ∈ metrology := fun m hmm => ((mem_sel _ _ _).1 (hmet.subset hmm)).1
  let dflt : Metro := ⟨0, 0, 0, 0, 0⟩
  let g : Spot → Metro := fun s => (metrology.find? (fun m => decide (same s m))).getD dflt
  have hms : kk.map (fun k => met.getD k dflt) = (fids spots).map g := by
    apply List.ext_getElem
    · rw [List.length_map, g2, List.length_map, List.length_map]
    · intro i h1 h2
      have hi : i < (fids spots).length := by simpa using h2
      have hik : i < kk.length := by simpa using h1
      simp only [List.getElem_map]
      have hk := g3' kk[i] (List.getElem_mem _)
      rw [List.getD_eq_getElem _ _ hk]
      have hkeyi := congrArg (fun l => l.getD i 0) g4
      rw [List.getD_eq_getElem _ _ (by simpa using hik), List.getD_eq_getElem _ _ (by simpa using hi)] at hkeyi
      simp only [List.getElem_map] at hkeyi
      rw [List.getD_eq_getElem _ _ (by simpa using hk)] at hkeyi
      simp only [List.getElem_map] at hkeyi
      have hsm := (mem_fids spots _).1 (List.getElem_mem hi)
      -- the entry found is that of a fiducial spot
      have hmmem : met[kk[i]] ∈ met := List.getElem_mem _
      have : mk met[kk[i]] ∈ fid.map sk := by rw [heq]; exact List.mem_map.2 ⟨_, hmmem, rfl⟩
      obtain ⟨s', hs', hsk⟩ := List.mem_map.1 this
      have hs'2 := (mem_fids spots s').1 (hfid.subset hs')
      have hsk' := Prod.ext_iff.1 hsk
      have q := hkey _ hsm.1 hsm.2 s' hs'2.1 hs'2.2 (by
        unfold pinloc at hkeyi
        have w1 : s'.loc = met[kk[i]].loc := hsk'.1
        have w2 : s'.pin = met[kk[i]].pin := hsk'.2
        rw [w1, w2]; exact hkeyi.symm)
      have hsame : same (fids spots)[i] met[kk[i]] := ⟨q.1.trans hsk'.1, q.2.trans hsk'.2⟩
      show met[kk[i]] = (metrology.find? (fun m => decide (same (fids spots)[i] m))).getD dflt
      rw [find_unique metrology hm _ (hmemm _ hmmem) _ hsame]
      rfl
  refine ⟨(fids spots).map g, ?_, ?_⟩
  · unfold reorder
    dsimp only
    rw [hff, g1]
    have hg : ∀ s ∈ fids spots, same s (g s) := by
      intro s hsf
      obtain ⟨m, hmm, hsame⟩ := hex s hsf
      show same s ((metrology.find? (fun m => decide (same s m))).getD dflt)
      rw [find_unique metrology hm m (hmemm m hmm) s hsame]
      exact hsame
    have a1 : (fids spots).map Spot.loc = ((fids spots).map g).map Metro.loc := by
      rw [List.map_map]; exact List.map_congr_left fun s hsf => (hg s hsf).1
    have a2 : (fids spots).map Spot.pin = ((fids spots).map g).map Metro.pin := by
      rw [List.map_map]; exact List.map_congr_left fun s hsf => (hg s hsf).2
    show (kk.mapM (getIdx met) >>= fun ms => _) = _
    rw [mapM_getIdx dflt met kk g3', hms]
    show (assertEq _ _ >>= fun _ => assertEq _ _ >>= fun _ => _) = _
    rw [assertEq_of_eq _ _ a1, assertEq_of_eq _ _ a2]
    rfl
  · rw [fill_map g spots h0]
    refine List.map_congr_left fun s hsp => ?_
    unfold entry
    by_cases hf : isFid s
    · rw [if_pos hf, if_pos hf]
      obtain ⟨m, hmm, hsame⟩ := hex s ((mem_fids _ _).2 ⟨hsp, hf⟩)
      show (((metrology.find? (fun m => decide (same s m))).getD dflt).x,
        ((metrology.find? (fun m => decide (same s m))).getD dflt).y,
        ((metrology.find? (fun m => decide (same s m))).getD dflt).z) = _
      rw [find_unique metrology hm m (hmemm m hmm) s hsame]
      rfl
    · rw [if_neg hf, if_neg hf]

namespace Ff

theorem sort_perm_eq {α : Type} (key : α → ℤ × ℤ) (l l' : List α) (h : l.Perm l') (hn : (l.map key).Nodup)
    (h1 : l.Pairwise fun a b => lexLe (key a) (key b)) (h2 : l'.Pairwise fun a b => lexLe (key a) (key b)) : l = l' :=
  h.eq_of_pairwise (fun _ _ ha hb x y => List.inj_on_of_nodup_map hn ha (h.symm.subset hb) (lexLe_antisymm x y)) h1 h2

theorem pairUp_perm (sortS : List Spot → List Spot) (sortM : List Metro → List Metro) (hs : SortOk sortS sortM)
    (spots spots' : List Spot) (metrology metrology' : List Metro) (hp : spots'.Perm spots)
    (hq : metrology'.Perm metrology) (hn : ((fids spots).map sk).Nodup) (hm : (metrology.map mk).Nodup) :
    pairUp sortS sortM spots' metrology' = pairUp sortS sortM spots metrology := by
  have hf : (fids spots').Perm (fids spots) := hp.filter _
  have e1 : sortS (fids spots') = sortS (fids spots) :=
    sort_perm_eq sk _ _ ((hs.permS _).trans (hf.trans (hs.permS _).symm))
      ((((hs.permS _).trans hf).map sk).nodup_iff.2 hn) (hs.ordS _) (hs.ordS _)
  have hsel : (sel spots' metrology').Perm (sel spots metrology) := by
    unfold sel
    refine (hq.filter _).trans (List.Perm.of_eq (List.filter_congr fun m _ => ?_))
    have := (hf.map fun s => pinloc s.loc s.pin).mem_iff (a := pinloc m.loc m.pin)
    exact decide_eq_decide.2 this
  have hselN : ((sel spots metrology).map mk).Nodup := hm.sublist (List.filter_sublist.map mk)
  have e2 : sortM (sel spots' metrology') = sortM (sel spots metrology) :=
    sort_perm_eq mk _ _ ((hs.permM _).trans (hsel.trans (hs.permM _).symm))
      ((((hs.permM _).trans hsel).map mk).nodup_iff.2 hselN) (hs.ordM _) (hs.ordM _)
  show (do
      assertEq ((sortS (fids spots')).map Spot.loc) ((sortM (sel spots' metrology')).map Metro.loc)
      assertEq ((sortS (fids spots')).map Spot.pin) ((sortM (sel spots' metrology')).map Metro.pin)
      return (sortS (fids spots'), sortM (sel spots' metrology'))) = _
  rw [e1, e2]
  rfl

end Ff

open Ff in
/-- The fitted transformation and its goodness do not depend on the order of the rows of either
table. -/
theorem C36_row_order (env : Env) (hs : SortOk env.sortS env.sortM) (t : Model.Fvc2fp.FVC2FP) (o : Opts)
    (spots spots' : List Spot) (metrology metrology' : List Metro) (hp : spots'.Perm spots)
    (hq : metrology'.Perm metrology) (hn : ((fids spots).map fun s => (s.loc, s.pin)).Nodup)
    (hm : (metrology.map fun m => (m.loc, m.pin)).Nodup) :
    fit env t { o with updateSpots := false } spots' metrology' =
      fit env t { o with updateSpots := false } spots metrology := by
  unfold fit
  rw [pairUp_perm env.sortS env.sortM hs spots spots' metrology metrology' hp hq hn hm]
  rfl

open Ff in
/-- The whole fit: `nmatch` is the number of fiducial spots, a fixed scale or rotation and, without
`zbfit`, the distortion coefficients are left exactly as they were, and `update_spots` changes
nothing in the fit and adds to every row its focal plane coordinates and the metrology coordinates
of its own pinhole. -/
theorem C36_fit (env : Env) (hs : SortOk env.sortS env.sortM) (ha : ArgsortOk env.argsort)
    (t t' : Model.Fvc2fp.FVC2FP) (o : Opts) (g : Goodness)
    (spots : List Spot) (metrology : List Metro) (hn : ((fids spots).map fun s => (s.loc, s.pin)).Nodup)
    (hm : (metrology.map fun m => (m.loc, m.pin)).Nodup) (hl : (fids spots).length ≠ 1)
    (h0 : ∀ s ∈ spots, s.loc ≠ 0)
    (hkey : ∀ s ∈ spots, isFid s → ∀ s' ∈ spots, isFid s' → s.loc * 10 + s.pin = s'.loc * 10 + s'.pin →
      s.loc = s'.loc ∧ s.pin = s'.pin)
    (x : Option (List OutSpot))
    (h : fit env t { o with updateSpots := false } spots metrology = .ok (t', g, x)) :
    g.nmatch = (spots.filter fun s => decide (isFid s)).length ∧
      (o.fixedScale = true → t'.scale = t.scale) ∧ (o.fixedRotation = true → t'.rotation = t.rotation) ∧
      (o.zbfit = false → t'.zbcoeffs = t.zbcoeffs) ∧ t'.zbpolids = t.zbpolids ∧
      ∀ q, t'.fvc2fp (spots.map fun s => (s.xpix, s.ypix)) = .ok q →
        ∃ out, fit env t { o with updateSpots := true } spots metrology = .ok (t', g, some out) ∧
          out.map OutSpot.spot = spots ∧ out.map (fun r => (r.xfp, r.yfp)) = q ∧
          out.map OutSpot.metro = spots.map (entry metrology) := by
  unfold fit at h ⊢
  obtain ⟨⟨fid, met⟩, h1, h⟩ := Lemmas.bind_ok h
  dsimp only at h
  obtain ⟨r, h2, h⟩ := Lemmas.bind_ok h
  obtain ⟨g', h3, h⟩ := Lemmas.bind_ok h
  simp only [Bool.false_eq_true, if_false, pure, Except.pure, Except.ok.injEq, Prod.mk.injEq] at h
  obtain ⟨ht, hg, -⟩ := h
  subst hg
  refine ⟨?_, ?_, ?_, ?_, ?_, ?_⟩
  · obtain ⟨q, -, h3⟩ := Lemmas.bind_ok h3
    simp only [pure, Except.pure, Except.ok.injEq] at h3
    rw [← h3]
    exact ((C36_pairs env.sortS env.sortM hs spots metrology hn hm hl fid met h1).2.1).length_eq
  · intro hf
    obtain ⟨p, -, h2⟩ := Lemmas.bind_ok h2
    rw [← ht]
    simp only [hf, if_true] at h2
    by_cases hz : o.zbfit = true
    · simp only [hz, if_true] at h2
      obtain ⟨l', -, h2⟩ := Lemmas.bind_ok h2
      obtain ⟨c, -, h2⟩ := Lemmas.bind_ok h2
      simp only [pure, Except.pure, Except.ok.injEq] at h2
      rw [← h2]; rfl
    · simp only [hz] at h2
      simp only [pure, Except.pure, Except.ok.injEq, Bool.false_eq_true, if_false] at h2
      rw [← h2]; rfl
  · intro hf
    obtain ⟨p, -, h2⟩ := Lemmas.bind_ok h2
    rw [← ht]
    simp only [hf, if_true] at h2
    by_cases hz : o.zbfit = true
    · simp only [hz, if_true] at h2
      obtain ⟨l', -, h2⟩ := Lemmas.bind_ok h2
      obtain ⟨c, -, h2⟩ := Lemmas.bind_ok h2
      simp only [pure, Except.pure, Except.ok.injEq] at h2
      rw [← h2]; rfl
    · simp only [hz] at h2
      simp only [pure, Except.pure, Except.ok.injEq, Bool.false_eq_true, if_false] at h2
      rw [← h2]; rfl
  · intro hz
    obtain ⟨p, -, h2⟩ := Lemmas.bind_ok h2
    rw [← ht]
    simp only [hz] at h2
    simp only [pure, Except.pure, Except.ok.injEq, Bool.false_eq_true, if_false] at h2
    rw [← h2]; rfl
  · rw [← ht]
  · intro q hq
    obtain ⟨ms, k1, k2⟩ := C36_update env.sortS env.sortM hs env.argsort ha spots metrology hn hm hl h0 hkey fid met h1
    have hql : q.length = spots.length := by
      have : ∀ (f : ℝ × ℝ → Except PyErr (ℝ × ℝ)) (l : List (ℝ × ℝ)) q, l.mapM f = .ok q → q.length = l.length := by
        intro f l
        induction l with
        | nil => intro q h; simp only [List.mapM_nil, pure, Except.pure, Except.ok.injEq] at h; rw [← h]
        | cons a l ih =>
          intro q h
          rw [List.mapM_cons] at h
          obtain ⟨b, -, h⟩ := Lemmas.bind_ok h
          obtain ⟨q', h', h⟩ := Lemmas.bind_ok h
          simp only [pure, Except.pure, Except.ok.injEq] at h
          rw [← h, List.length_cons, ih q' h', List.length_cons]
      have := this _ _ _ hq
      simpa using this
    have hfl : (fill spots ms).length = spots.length := by rw [k2, List.length_map]
    refine ⟨(spots.zip (q.zip (fill spots ms))).map fun e => ⟨e.1, e.2.1.1, e.2.1.2, e.2.2⟩, ?_, ?_, ?_, ?_⟩
    · rw [h1]
      show (fitScaleRotationOffset _ _ _ _ _ _ >>= fun _ => _) = _
      rw [h2]
      show (goodness _ fid met >>= fun _ => _) = _
      rw [h3]
      show (updateSpots env.argsort _ spots met >>= fun _ => _) = _
      rw [ht]
      have hu : updateSpots env.argsort t' spots met =
          .ok ((spots.zip (q.zip (fill spots ms))).map fun e => ⟨e.1, e.2.1.1, e.2.1.2, e.2.2⟩) := by
        unfold updateSpots
        rw [hq]
        show (reorder env.argsort spots met >>= fun _ => _) = _
        rw [k1]
        rfl
      rw [hu]
      rfl
    · rw [List.map_map]
      show List.map Prod.fst _ = _
      exact List.map_fst_zip (by rw [List.length_zip]; omega)
    · rw [List.map_map]
      show List.map (Prod.fst ∘ Prod.snd) _ = _
      rw [← List.map_map, List.map_snd_zip (by rw [List.length_zip]; omega)]
      exact List.map_fst_zip (by omega)
    · rw [List.map_map]
      show List.map (Prod.snd ∘ Prod.snd) _ = _
      rw [← List.map_map, List.map_snd_zip (by rw [List.length_zip]; omega),
        List.map_snd_zip (by omega), k2]

/-- The pinhole numbers of the metrology and of spotmatch centres satisfy the hypothesis of
`C36_last_digit`; two fiducial spots among three rows. -/
example : (∀ p ∈ ({0, 1, 2, 3, 4, 5} : Set ℤ), ∀ q ∈ ({0, 1, 2, 3, 4, 5} : Set ℤ), p % 10 = q % 10 → p = q) ∧
    (∀ p ∈ ({0, 99} : Set ℤ), ∀ q ∈ ({0, 99} : Set ℤ), p % 10 = q % 10 → p = q) ∧
    (Ff.fids [⟨1542, 2, 10, 20⟩, ⟨-1, 0, 30, 40⟩, ⟨1542, 4, 11, 21⟩]).length = 2 := by
  refine ⟨?_, ?_, rfl⟩
  · intro p hp q hq h
    simp only [Set.mem_insert_iff, Set.mem_singleton_iff] at hp hq
    omega
  · intro p hp q hq h
    simp only [Set.mem_insert_iff, Set.mem_singleton_iff] at hp hq
    omega

open Ff in
/-- Sorts as assumed exist. -/
example : SortOk (pySort fun s => toLex (s.loc, s.pin)) (pySort fun m => toLex (m.loc, m.pin)) ∧
    ArgsortOk fun l => pySort (fun i => l.getD i 0) (List.range l.length) := by
  refine ⟨⟨fun l => Lemmas.perm_pySort _ l, fun l => Lemmas.perm_pySort _ l, ?_, ?_⟩, ⟨fun l => Lemmas.perm_pySort _ _, ?_⟩⟩
  · intro l
    exact (Lemmas.sorted_pySort (fun s : Spot => toLex (s.loc, s.pin)) l).imp fun h => by
      simpa [Prod.Lex.le_iff, lexLe, sk] using h
  · intro l
    exact (Lemmas.sorted_pySort (fun m : Metro => toLex (m.loc, m.pin)) l).imp fun h => by
      simpa [Prod.Lex.le_iff, lexLe, mk] using h
  · intro l
    rw [List.pairwise_map]
    exact Lemmas.sorted_pySort _ _

end Verif.Props
