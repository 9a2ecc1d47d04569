import Verif.Model.AlignExport
import Verif.Props.DataDir
import Verif.Props.PlotPosparams

/-!
# C121: alignments exported from the data base
-/

namespace Verif.Props.AlignExport
open Verif.Py Verif.Model Verif.Model.AlignExport
open Verif.Model.Ptl2fp (Alignment V3 ptl2fp fp2ptl Rxyz)

/-! ## Specification -/

/-- The constants of the row are the offsets and angles of `a`. -/
def Aligned (r : Row) (a : Alignment) : Prop :=
  r.data "petal_offset_x".toList = some a.Tx ∧ r.data "petal_offset_y".toList = some a.Ty ∧ r.data "petal_offset_z".toList = some a.Tz ∧
  r.data "petal_rot_1".toList = some a.alpha ∧ r.data "petal_rot_2".toList = some a.beta ∧ r.data "petal_rot_3".toList = some a.gamma

/-- The row can be exported. -/
def Good (toInt : PyStr → Option ℤ) (r : Row) : Prop := (toInt r.name).isSome ∧ ∃ a, Aligned r a

/-- The last row for the petal. -/
def LastRow (toInt : PyStr → Option ℤ) (rows : List Row) (k : ℤ) (r : Row) : Prop :=
  ∃ u v, rows = u ++ r :: v ∧ toInt r.name = some k ∧ ∀ c ∈ v, toInt c.name ≠ some k

/-- The latest version. -/
def Latest (versions : List ℤ) (m : ℤ) : Prop := m ∈ versions ∧ ∀ v ∈ versions, v ≤ m

/-- Names of files accepted: `.yaml` is somewhere but not at the start. -/
def NameOk (f : PyStr) : Prop := ".yaml".toList <:+: f ∧ ¬ ".yaml".toList <+: f

/-! ## Entries -/

theorem get_ok (r : Row) (key : PyStr) (x : ℝ) : get r key = .ok x ↔ r.data key = some x := by
  unfold AlignExport.get
  rcases r.data key with _ | y
  · simp
  · simp

theorem entry_ok (toInt : PyStr → Option ℤ) (r : Row) (k : ℤ) (a : Alignment) :
    entry toInt r = .ok (k, a) ↔ toInt r.name = some k ∧ Aligned r a := by
  unfold entry Aligned
  simp only [RayRun.bind_iff, get_ok]
  obtain ⟨al, be, ga, x, y, z⟩ := a
  constructor
  · rintro ⟨k', hk, tx, h1, ty, h2, tz, h3, a1, h4, a2, h5, a3, h6, h⟩
    have h := Except.ok.inj h
    simp only [Prod.mk.injEq, Alignment.mk.injEq] at h
    obtain ⟨rfl, rfl, rfl, rfl, rfl, rfl, rfl⟩ := h
    refine ⟨?_, h1, h2, h3, h4, h5, h6⟩
    split at hk
    · next h => rw [h, Except.ok.inj hk]
    · cases hk
  · rintro ⟨hk, h1, h2, h3, h4, h5, h6⟩
    exact ⟨k, by rw [hk], x, h1, y, h2, z, h3, al, h4, be, h5, ga, h6, rfl⟩

theorem entry_good (toInt : PyStr → Option ℤ) (r : Row) : Good toInt r ↔ ∃ e, entry toInt r = .ok e := by
  constructor
  · rintro ⟨h, a, ha⟩
    obtain ⟨k, hk⟩ := Option.isSome_iff_exists.1 h
    exact ⟨(k, a), (entry_ok _ _ _ _).2 ⟨hk, ha⟩⟩
  · rintro ⟨⟨k, a⟩, h⟩
    obtain ⟨hk, ha⟩ := (entry_ok _ _ _ _).1 h
    exact ⟨by rw [hk]; rfl, a, ha⟩

theorem get_error (r : Row) (key : PyStr) : r.data key = none → get r key = .error .keyError := by
  intro h
  unfold AlignExport.get
  rw [h]

theorem get_cases (r : Row) (key : PyStr) : (∃ x, get r key = .ok x) ∨ get r key = .error .keyError := by
  unfold AlignExport.get
  rcases r.data key with _ | x
  · exact Or.inr rfl
  · exact Or.inl ⟨x, rfl⟩

theorem entry_bad (toInt : PyStr → Option ℤ) (r : Row) (h : ¬ Good toInt r) :
    entry toInt r = .error (if toInt r.name = none then .valueError else .keyError) := by
  have hn : ∀ e, entry toInt r ≠ .ok e := fun e he => h ((entry_good toInt r).2 ⟨e, he⟩)
  unfold entry at hn ⊢
  rcases hk : toInt r.name with _ | k
  · rw [if_pos rfl]
    rfl
  · rw [if_neg (by simp)]
    rw [hk] at hn
    rcases get_cases r "petal_offset_x".toList with ⟨x, e1⟩ | e1 <;> rw [e1] at hn ⊢
    swap
    · rfl
    rcases get_cases r "petal_offset_y".toList with ⟨y, e2⟩ | e2 <;> rw [e2] at hn ⊢
    swap
    · rfl
    rcases get_cases r "petal_offset_z".toList with ⟨z, e3⟩ | e3 <;> rw [e3] at hn ⊢
    swap
    · rfl
    rcases get_cases r "petal_rot_1".toList with ⟨a, e4⟩ | e4 <;> rw [e4] at hn ⊢
    swap
    · rfl
    rcases get_cases r "petal_rot_2".toList with ⟨b, e5⟩ | e5 <;> rw [e5] at hn ⊢
    swap
    · rfl
    rcases get_cases r "petal_rot_3".toList with ⟨c, e6⟩ | e6 <;> rw [e6] at hn ⊢
    swap
    · rfl
    exact absurd rfl (hn _)

theorem lastRow_cons (toInt : PyStr → Option ℤ) (r : Row) (rs : List Row) (k : ℤ) (q : Row) :
    LastRow toInt (r :: rs) k q ↔ LastRow toInt rs k q ∨ (q = r ∧ toInt r.name = some k ∧ ∀ c ∈ rs, toInt c.name ≠ some k) := by
  constructor
  · rintro ⟨u, v, h, hk, hv⟩
    rcases u with _ | ⟨w, u⟩
    · simp only [List.nil_append, List.cons.injEq] at h
      obtain ⟨rfl, rfl⟩ := h
      exact Or.inr ⟨rfl, hk, hv⟩
    · simp only [List.cons_append, List.cons.injEq] at h
      obtain ⟨rfl, rfl⟩ := h
      exact Or.inl ⟨u, v, rfl, hk, hv⟩
  · rintro (⟨u, v, rfl, hk, hv⟩ | ⟨rfl, hk, hv⟩)
    · exact ⟨r :: u, v, rfl, hk, hv⟩
    · exact ⟨[], rs, rfl, hk, hv⟩

theorem no_last (toInt : PyStr → Option ℤ) (rows : List Row) (k : ℤ) : (∃ r, LastRow toInt rows k r) ↔ ∃ c ∈ rows, toInt c.name = some k := by
  induction rows with
  | nil =>
    constructor
    · rintro ⟨r, u, v, h, _⟩
      simp at h
    · simp
  | cons r rs ih =>
    by_cases h : ∃ c ∈ rs, toInt c.name = some k
    · obtain ⟨q, hq⟩ := ih.2 h
      obtain ⟨c, hc, hk⟩ := h
      exact ⟨fun _ => ⟨c, List.mem_cons_of_mem _ hc, hk⟩, fun _ => ⟨q, (lastRow_cons _ _ _ _ _).2 (Or.inl hq)⟩⟩
    · constructor
      · rintro ⟨q, u, v, hu, hk, _⟩
        exact ⟨q, by rw [hu]; simp, hk⟩
      · rintro ⟨c, hc, hk⟩
        rcases List.mem_cons.1 hc with rfl | hc
        · exact ⟨c, (lastRow_cons _ _ _ _ _).2 (Or.inr ⟨rfl, hk, fun c hc hk => h ⟨c, hc, hk⟩⟩)⟩
        · exact absurd ⟨c, hc, hk⟩ h

theorem alignments_ok (toInt : PyStr → Option ℤ) (rows : List Row) (d : Dict ℤ Alignment) (h : ∀ r ∈ rows, Good toInt r) :
    ∃ d', alignments toInt rows d = .ok d' ∧
      ∀ k a, d'.get? k = some a ↔ (∃ r, LastRow toInt rows k r ∧ Aligned r a) ∨ ((∀ c ∈ rows, toInt c.name ≠ some k) ∧ d.get? k = some a) := by
  induction rows generalizing d with
  | nil =>
    refine ⟨d, rfl, ?_⟩
    intro k a
    constructor
    · intro h
      exact Or.inr ⟨by simp, h⟩
    · rintro (⟨r, ⟨u, v, h, _⟩, _⟩ | ⟨_, h⟩)
      · simp at h
      · exact h
  | cons r rs ih =>
    obtain ⟨⟨k0, a0⟩, he⟩ := (entry_good toInt r).1 (h r (by simp))
    obtain ⟨hk0, ha0⟩ := (entry_ok _ _ _ _).1 he
    obtain ⟨d', hd, hget⟩ := ih (d.set k0 a0) fun q hq => h q (List.mem_cons_of_mem _ hq)
    refine ⟨d', ?_, ?_⟩
    · unfold alignments
      rw [he]
      exact hd
    · have huniq : ∀ a, Aligned r a → a = a0 := by
        intro a ha
        have := ((entry_ok toInt r k0 a).2 ⟨hk0, ha⟩).symm.trans he
        exact (Prod.mk.inj (Except.ok.inj this)).2
      intro k a
      rw [hget, Dict.get?_set]
      constructor
      · rintro (⟨q, hq, ha⟩ | ⟨hno, hs⟩)
        · exact Or.inl ⟨q, (lastRow_cons _ _ _ _ _).2 (Or.inl hq), ha⟩
        · split_ifs at hs with hk
          · subst hk
            have := Option.some.inj hs
            subst this
            exact Or.inl ⟨r, (lastRow_cons _ _ _ _ _).2 (Or.inr ⟨rfl, hk0, hno⟩), ha0⟩
          · refine Or.inr ⟨?_, hs⟩
            intro c hc
            rcases List.mem_cons.1 hc with rfl | hc
            · rw [hk0]
              exact fun e => hk (Option.some.inj e)
            · exact hno c hc
      · rintro (⟨q, hq, ha⟩ | ⟨hno, hs⟩)
        · rcases (lastRow_cons _ _ _ _ _).1 hq with hq | ⟨rfl, hk, hno⟩
          · exact Or.inl ⟨q, hq, ha⟩
          · rw [hk0] at hk
            have hk := Option.some.inj hk
            exact Or.inr ⟨hno, by rw [if_pos hk, huniq a ha]⟩
        · refine Or.inr ⟨fun c hc => hno c (List.mem_cons_of_mem _ hc), ?_⟩
          rw [if_neg]
          · exact hs
          · rintro rfl
            exact hno r (by simp) hk0

theorem alignments_bad (toInt : PyStr → Option ℤ) (u v : List Row) (r : Row) (d : Dict ℤ Alignment) (hu : ∀ q ∈ u, Good toInt q) (hr : ¬ Good toInt r) :
    alignments toInt (u ++ r :: v) d = .error (if toInt r.name = none then .valueError else .keyError) := by
  induction u generalizing d with
  | nil =>
    rw [List.nil_append, alignments, entry_bad toInt r hr]
  | cons q u ih =>
    obtain ⟨e, he⟩ := (entry_good toInt q).1 (hu q (by simp))
    rw [List.cons_append, alignments, he]
    exact ih _ fun x hx => hu x (List.mem_cons_of_mem _ hx)

theorem latest_iff (versions : List ℤ) (m : ℤ) : versions.max? = some m ↔ Latest versions m := by
  unfold Latest
  exact List.max?_eq_some_iff

theorem name_iff (f : PyStr) : ProcessFvc.findPos ".yaml".toList f = true ↔ NameOk f := by
  unfold ProcessFvc.findPos NameOk
  generalize ".yaml".toList = y
  rw [Bool.and_eq_true, PlotPosparams.pyIn_iff, Bool.not_eq_true', ← Bool.not_eq_true, List.isPrefixOf_iff_prefix]
  exact And.comm

/-! ## The run -/

/-- **C121** The run succeeds exactly if there is a version, all rows of the latest one have a number as name and the six constants, and the name of the file is accepted; then exactly this
file is written: the entry of each petal is that of its last row. -/
theorem C121_run (toInt : PyStr → Option ℤ) (versions : List ℤ) (query : ℤ → List Row) (f : PyStr) (fs fs' : PyStr → Option Contents) :
    run toInt versions query f fs = (.ok (), fs') ↔
      ∃ m, Latest versions m ∧ (∀ r ∈ query m, Good toInt r) ∧ NameOk f ∧
        (∃ c, fs' f = some c ∧ c.version = m ∧ ∀ k a, c.entries k = some a ↔ ∃ r, LastRow toInt (query m) k r ∧ Aligned r a) ∧ ∀ p, p ≠ f → fs' p = fs p := by
  unfold run
  constructor
  · intro h
    rcases hm : versions.max? with _ | m
    · rw [hm] at h
      cases (Prod.mk.inj h).1
    rw [hm] at h
    dsimp only at h
    have hg : ∀ r ∈ query m, Good toInt r := by
      by_contra hn
      push Not at hn
      obtain ⟨r, hr, hb⟩ := hn
      obtain ⟨u, q, v, hq, hu, hqb⟩ : ∃ u q v, query m = u ++ q :: v ∧ (∀ x ∈ u, Good toInt x) ∧ ¬ Good toInt q := by
        clear h
        generalize query m = l at hr
        induction l with
        | nil => simp at hr
        | cons x l ih =>
          by_cases hx : Good toInt x
          · rcases List.mem_cons.1 hr with rfl | hr
            · exact absurd hx hb
            · obtain ⟨u, q, v, h1, h2, h3⟩ := ih hr
              refine ⟨x :: u, q, v, by rw [h1]; rfl, ?_, h3⟩
              intro y hy
              rcases List.mem_cons.1 hy with rfl | hy
              · exact hx
              · exact h2 y hy
          · exact ⟨[], x, l, rfl, by simp, hx⟩
      rw [hq, alignments_bad toInt u v q [] hu hqb] at h
      cases (Prod.mk.inj h).1
    obtain ⟨d, hd, hget⟩ := alignments_ok toInt (query m) [] hg
    rw [hd] at h
    dsimp only at h
    by_cases hf : ProcessFvc.findPos ".yaml".toList f = true
    · rw [if_pos hf] at h
      have hfs := (Prod.mk.inj h).2
      subst hfs
      refine ⟨m, (latest_iff _ _).1 hm, hg, (name_iff f).1 hf, ⟨_, if_pos rfl, rfl, ?_⟩, fun p hp => if_neg hp⟩
      intro k a
      dsimp only
      rw [hget]
      simp [Dict.get?]
    · rw [if_neg hf] at h
      cases (Prod.mk.inj h).1
  · rintro ⟨m, hm, hg, hf, ⟨⟨ver, ent⟩, hc, hver, hent⟩, hp⟩
    dsimp only at hver hent
    subst hver
    rw [(latest_iff _ _).2 hm]
    dsimp only
    obtain ⟨d, hd, hget⟩ := alignments_ok toInt (query ver) [] hg
    rw [hd]
    dsimp only
    rw [if_pos ((name_iff f).2 hf)]
    congr 1
    funext p
    by_cases h : p = f
    · subst h
      rw [if_pos rfl, hc]
      congr 2
      funext k
      apply Option.ext
      intro a
      show d.get? k = some a ↔ ent k = some a
      rw [hent, hget]
      simp [Dict.get?]
    · rw [if_neg h, hp p h]

/-- **C121** All other runs write nothing, and end with an error: without versions, and at the first row that cannot be exported, `ValueError` if its name is no number and else `KeyError`;
and after all else status 12 for a name of file that is not accepted. -/
theorem C121_errors (toInt : PyStr → Option ℤ) (versions : List ℤ) (query : ℤ → List Row) (f : PyStr) (fs : PyStr → Option Contents) :
    (versions = [] → run toInt versions query f fs = (.error .valueError, fs)) ∧
    (∀ m u r v, Latest versions m → query m = u ++ r :: v → (∀ q ∈ u, Good toInt q) → ¬ Good toInt r →
      (toInt r.name = none → run toInt versions query f fs = (.error .valueError, fs)) ∧
      ∀ k, toInt r.name = some k → run toInt versions query f fs = (.error .keyError, fs)) ∧
    ∀ m, Latest versions m → (∀ r ∈ query m, Good toInt r) → ¬ NameOk f → run toInt versions query f fs = (.error (.sysExit 12), fs) := by
  refine ⟨?_, ?_, ?_⟩
  · rintro rfl
    rfl
  · intro m u r v hm hq hu hr
    have key := alignments_bad toInt u v r [] hu hr
    unfold run
    rw [(latest_iff _ _).2 hm]
    dsimp only
    rw [hq, key]
    constructor
    · intro h
      rw [if_pos h]
    · intro k h
      rw [if_neg (by rw [h]; simp)]
  · intro m hm hg hf
    obtain ⟨d, hd, _⟩ := alignments_ok toInt (query m) [] hg
    unfold run
    rw [(latest_iff _ _).2 hm]
    dsimp only
    rw [hd]
    dsimp only
    rw [if_neg (fun h => hf ((name_iff f).1 h))]

/-- **C121** (finding) The name is looked at only at the end, after all queries, and any `.yaml` in it but at its start counts: also that of a directory or before another extension; a file `.yaml` in the
current directory is refused. -/
theorem C121_names (pre post : PyStr) (hne : pre ≠ []) (hdot : pre.head? ≠ some '.') :
    NameOk (pre ++ ".yaml".toList ++ post) ∧ ¬ NameOk (".yaml".toList ++ post) := by
  refine ⟨⟨⟨pre, post, rfl⟩, ?_⟩, fun h => h.2 (List.prefix_append _ _)⟩
  rintro ⟨t, ht⟩
  rcases pre with _ | ⟨c, pre⟩
  · exact hne rfl
  · have : ".yaml".toList = ['.', 'y', 'a', 'm', 'l'] := rfl
    rw [this] at ht
    simp only [List.cons_append, List.cons.injEq] at ht
    apply hdot
    rw [ht.1]
    rfl

/-! ## Use of the file -/

/-- **C121** A process with the exported file in its data directory converts points of a petal of the data base by its rotations and offsets, and back, and has a `KeyError` for all other petals. -/
theorem C121_used (toInt : PyStr → Option ℤ) (versions : List ℤ) (query : ℤ → List Row) (pkg dir : PyStr) (fs fs' : PyStr → Option Contents) (gfa : Option Gfa2fp.Transforms)
    (metro : PyStr → Option (List Gfa2fp.GRow)) (hrun : run toInt versions query (PlotPosmoves.join dir "petal-alignments.yaml".toList) fs = (.ok (), fs')) (m : ℤ)
    (hm : Latest versions m) (petal : ℕ) (p : V3) :
    let s : DataDir.Sess := ⟨some dir, ⟨fun path => (fs' path).map fun c => some (load c), metro⟩, none, gfa⟩
    (∀ r x y z a b c, LastRow toInt (query m) petal r → r.data "petal_offset_x".toList = some x → r.data "petal_offset_y".toList = some y →
      r.data "petal_offset_z".toList = some z → r.data "petal_rot_1".toList = some a → r.data "petal_rot_2".toList = some b → r.data "petal_rot_3".toList = some c →
      (DataDir.step pkg s (.toFp petal p)).1 = .point (.ok ((Rxyz a b c).mulVec p + ![x, y, z])) ∧
      (DataDir.step pkg s (.toPtl petal ((Rxyz a b c).mulVec p + ![x, y, z]))).1 = .point (.ok p)) ∧
    ((∀ r ∈ query m, toInt r.name ≠ some (petal : ℤ)) → (DataDir.step pkg s (.toFp petal p)).1 = .point (.error .keyError) ∧
      (DataDir.step pkg s (.toPtl petal p)).1 = .point (.error .keyError)) := by
  intro s
  obtain ⟨m', hm', hg, _, ⟨c0, hc0, _, hent⟩, _⟩ := (C121_run _ _ _ _ _ _).1 hrun
  have hmm : m' = m := le_antisymm (hm.2 m' hm'.1) (hm'.2 m hm.1)
  subst hmm
  have hfile : DataDir.alignFile pkg s = some (some (load c0)) := by
    show (fs' (PlotPosmoves.join dir "petal-alignments.yaml".toList)).map (fun c => some (load c)) = some (some (load c0))
    rw [hc0]
    rfl
  have h1 : ∀ p, (DataDir.step pkg s (.toFp petal p)).1 = .point (ptl2fp (load c0) petal p) := fun p =>
    DataDir.C120_first_use pkg s rfl (load c0) hfile (.toFp petal p) (Or.inl ⟨_, _, rfl⟩) [] (.toFp petal p, _) (by simp [DataDir.run])
  have h2 : ∀ p, (DataDir.step pkg s (.toPtl petal p)).1 = .point (fp2ptl (load c0) petal p) := fun p =>
    DataDir.C120_first_use pkg s rfl (load c0) hfile (.toPtl petal p) (Or.inr ⟨_, _, rfl⟩) [] (.toPtl petal p, _) (by simp [DataDir.run])
  constructor
  · intro r x y z a b c hr hx hy hz ha hb hc
    have he : load c0 petal = some ⟨a, b, c, x, y, z⟩ := (hent petal ⟨a, b, c, x, y, z⟩).2 ⟨r, hr, hx, hy, hz, ha, hb, hc⟩
    have hp : ptl2fp (load c0) petal p = .ok ((Rxyz a b c).mulVec p + ![x, y, z]) := by
      unfold ptl2fp Ptl2fp.lookup
      rw [he]
      rfl
    refine ⟨by rw [h1, hp], ?_⟩
    have hi := (C10_inverse (load c0) petal p).1
    rw [hp, he] at hi
    rw [h2]
    exact congrArg _ hi
  · intro hno
    have he : load c0 petal = none := by
      rcases e : load c0 petal with _ | a
      · rfl
      · obtain ⟨r, ⟨u, v, hq, hk, _⟩, _⟩ := (hent petal a).1 e
        exact absurd hk (hno r (by rw [hq]; simp))
    rw [h1, h2]
    unfold ptl2fp fp2ptl Ptl2fp.lookup
    rw [he]
    exact ⟨rfl, rfl⟩

/-- **C121** The order of rows does not matter if no petal has two. -/
theorem C121_order (toInt : PyStr → Option ℤ) (versions : List ℤ) (query query' : ℤ → List Row) (f : PyStr) (fs : PyStr → Option Contents)
    (hperm : ∀ m, (query m).Perm (query' m)) (hd : ∀ m, ((query m).map fun r => toInt r.name).Nodup) (fs' : PyStr → Option Contents) :
    run toInt versions query f fs = (.ok (), fs') ↔ run toInt versions query' f fs = (.ok (), fs') := by
  have key : ∀ (l : List Row) (k : ℤ) (r : Row), (l.map fun r => toInt r.name).Nodup → (LastRow toInt l k r ↔ r ∈ l ∧ toInt r.name = some k) := by
    intro l k r hl
    constructor
    · rintro ⟨u, v, rfl, hk, _⟩
      exact ⟨by simp, hk⟩
    · rintro ⟨hr, hk⟩
      obtain ⟨u, v, rfl⟩ := List.append_of_mem hr
      refine ⟨u, v, rfl, hk, ?_⟩
      intro c hc hck
      rw [List.map_append, List.map_cons] at hl
      have := (List.nodup_cons.1 (List.nodup_append.1 hl).2.1).1
      apply this
      rw [hk, ← hck]
      exact List.mem_map.2 ⟨c, hc, rfl⟩
  have hd' : ∀ m, ((query' m).map fun r => toInt r.name).Nodup := fun m => ((hperm m).map _).nodup_iff.1 (hd m)
  rw [C121_run, C121_run]
  simp only [key _ _ _ (hd _), key _ _ _ (hd' _), (hperm _).mem_iff]

/-! ## Example -/

/-- A data base with two versions, the latest with petals 0 and 3. -/
example : ∃ (toInt : PyStr → Option ℤ) (query : ℤ → List Row), Latest [1, 2] 2 ∧ (∀ r ∈ query 2, Good toInt r) ∧ NameOk "out.yaml".toList ∧ (query 2).length = 2 ∧
    ((query 2).map fun r => toInt r.name).Nodup := by
  refine ⟨fun s => if s = "0".toList then some 0 else if s = "3".toList then some 3 else none, fun _ => [⟨"0".toList, fun _ => some 1⟩, ⟨"3".toList, fun _ => some 2⟩],
    ⟨by simp, by simp⟩, ?_, (C121_names "out".toList [] (by decide) (by decide)).1, rfl, by decide⟩
  intro r hr
  simp only [List.mem_cons, List.not_mem_nil, or_false] at hr
  rcases hr with rfl | rfl
  · exact ⟨rfl, ⟨1, 1, 1, 1, 1, 1⟩, rfl, rfl, rfl, rfl, rfl, rfl⟩
  · exact ⟨rfl, ⟨2, 2, 2, 2, 2, 2⟩, rfl, rfl, rfl, rfl, rfl, rfl⟩

end Verif.Props.AlignExport
