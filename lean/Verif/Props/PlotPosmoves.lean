import Verif.Model.PlotPosmoves
import Verif.Props.Int2ptl
import Verif.Props.Ptl2fp
import Verif.Props.RayRun
import Verif.Props.FpMetrology
import Verif.Props.PosparamsJobs

/-!
# C118: the moves of a positioner drawn by `plot_posmoves`
-/

namespace Verif.Props.PlotPosmoves
open Verif.Py Verif.Model Verif.Model.PlotPosmoves
open Verif.Model.Int2ptl (Cal int2ptl)
open Verif.Model.ProcessFvc (basename)
open Verif.Model.PosparamsJobs (splitext)
open Verif.Props.Int2ptl (tip)

/-- Where the fibre is expected in the petal, with a calibration, for the angles of the motors. -/
noncomputable def At (c : Cal) (t p : ℝ) : ℝ × ℝ := Xy2qs.flat2ptl (tip c t p).1 (tip c t p).2

theorem int2ptl_one (c : Cal) (t p : ℝ) : int2ptl [t] [p] [c.r1] [c.r2] [c.tOff] [c.pOff] [c.x] [c.y] = .ok ([(At c t p).1], [(At c t p).2]) := by
  have := Int2ptl.int2ptl_run 1 (fun _ => t) (fun _ => p) (fun _ => c)
  simp only [Int2ptl.col, List.range_one, List.map_cons, List.map_nil] at this
  exact this

theorem bcast2_right {α β γ : Type} (f : α → β → γ) (a : List α) (b : β) : bcast2 f a [b] = .ok (a.map fun x => f x b) := by
  unfold bcast2
  rcases a with _ | ⟨x, _ | ⟨y, l⟩⟩ <;> simp

theorem bcast2_left {α β γ : Type} (f : α → β → γ) (a : α) (b : List β) : bcast2 f [a] b = .ok (b.map fun x => f a x) := by
  unfold bcast2
  rcases b with _ | ⟨x, _ | ⟨y, l⟩⟩ <;> simp

theorem bcast2_map {ι α β γ : Type} (f : α → β → γ) (l : List ι) (a : ι → α) (b : ι → β) : bcast2 f (l.map a) (l.map b) = .ok (l.map fun i => f (a i) (b i)) := by
  unfold bcast2
  rw [if_pos (by simp)]
  congr 1
  rw [List.zipWith_map, List.zipWith_self]

/-- One calibration for a whole column of angles. -/
theorem int2ptl_column (c : Cal) (rows : List Row) : int2ptl (rows.map Row.t) (rows.map Row.p) [c.r1] [c.r2] [c.tOff] [c.pOff] [c.x] [c.y] =
    .ok (rows.map fun r => (At c r.t r.p).1, rows.map fun r => (At c r.t r.p).2) := by
  unfold int2ptl Pos2ptl.int2loc Pos2ptl.ext2loc Pos2ptl.loc2flat Pos2ptl.int2ext Pos2ptl.addOffset
  simp only [bcast2_right, bcast2_left, bind, Except.bind, List.map_map, bcast2_map, pure, Except.pure, Function.comp_def]
  unfold At
  simp only [Int2ptl.tip_tp2xy, Xy2tp.tp2xy]

/-- **C118**: unless it is switched off or the file has no calibration, each move is expected where its own row's calibration puts the angles of the
motors. -/
theorem C118_expected (names : Names) (noDb : Bool) (rows : List Row) :
    expected names noDb rows = .ok (if noDb = false ∧ names.calib = true then some (rows.map fun r => At r.cal r.t r.p) else none) := by
  unfold expected
  by_cases h : noDb = false ∧ names.calib = true
  · rw [if_pos h, if_pos (by rw [h.1, h.2]; rfl)]
    have : (rows.mapM fun r : Row => do
        let q ← int2ptl [r.t] [r.p] [r.cal.r1] [r.cal.r2] [r.cal.tOff] [r.cal.pOff] [r.cal.x] [r.cal.y]
        single q) = .ok (rows.map fun r => At r.cal r.t r.p) := by
      rw [RayRun.mapM_iff]
      induction rows with
      | nil => exact .nil
      | cons r rows ih =>
        refine .cons ?_ ih
        rw [int2ptl_one]
        rfl
    rw [this]
    rfl
  · rw [if_neg h, if_neg]
    · rfl
    · intro h'
      rw [Bool.and_eq_true, Bool.not_eq_true'] at h'
      exact h h'

/-- `v` belongs to the first entry of the table for `k`. -/
def First {β : Type} (tab : List (PyStr × β)) (k : PyStr) (v : β) : Prop := ∃ pre post, tab = pre ++ (k, v) :: post ∧ ∀ e ∈ pre, e.1 ≠ k

theorem find_first {β : Type} (tab : List (PyStr × β)) (k : PyStr) :
    (∃ v, tab.find? (fun e => decide (e.1 = k)) = some (k, v) ∧ First tab k v) ∨
      (tab.find? (fun e => decide (e.1 = k)) = none ∧ ∀ e ∈ tab, e.1 ≠ k) := by
  induction tab with
  | nil => exact Or.inr ⟨rfl, by simp⟩
  | cons e tab ih =>
    by_cases he : e.1 = k
    · refine Or.inl ⟨e.2, ?_, [], tab, ?_, by simp⟩
      · rw [List.find?_cons_of_pos (by simpa using he), ← he]
      · rw [← he]; rfl
    · rw [List.find?_cons_of_neg (by simpa using he)]
      rcases ih with ⟨v, h1, pre, post, h2, h3⟩ | ⟨h1, h2⟩
      · refine Or.inl ⟨v, h1, e :: pre, post, by rw [h2]; rfl, ?_⟩
        intro x hx
        rcases List.mem_cons.1 hx with rfl | hx
        · exact he
        · exact h3 x hx
      · refine Or.inr ⟨h1, ?_⟩
        intro x hx
        rcases List.mem_cons.1 hx with rfl | hx
        · exact he
        · exact h2 x hx

/-- **C118**: with a table of fits the moves are also expected where the first entry of the positioner puts them; a positioner not in the table ends
the program with code 12. -/
theorem C118_fitted (tab : List (PyStr × Cal)) (posid : PyStr) (rows : List Row) :
    (∃ c, First tab posid c ∧ fitted (some tab) posid rows = .ok (some (rows.map fun r => At c r.t r.p))) ∨
    ((∀ e ∈ tab, e.1 ≠ posid) ∧ fitted (some tab) posid rows = .error (.sysExit 12)) := by
  rcases find_first tab posid with ⟨v, h1, h2⟩ | ⟨h1, h2⟩
  · refine Or.inl ⟨v, h2, ?_⟩
    unfold fitted
    dsimp only
    rw [h1]
    dsimp only
    rw [int2ptl_column]
    show Except.ok (some (List.zip _ _)) = _
    rw [List.zip_map']
  · refine Or.inr ⟨h2, ?_⟩
    unfold fitted
    dsimp only
    rw [h1]

/-- **C118**: when the first entry of the positioner is the calibration the moves were made with, the two expectations are the same points. -/
theorem C118_same (names : Names) (tab : List (PyStr × Cal)) (posid : PyStr) (rows : List Row) (c : Cal) (hn : names.calib = true)
    (hf : First tab posid c) (hc : ∀ r ∈ rows, r.cal = c) : expected names false rows = fitted (some tab) posid rows := by
  rw [C118_expected, if_pos ⟨rfl, hn⟩]
  rcases C118_fitted tab posid rows with ⟨c', h1, h2⟩ | ⟨h1, -⟩
  · have hcc : c = c' := by
      obtain ⟨p1, q1, e1, n1⟩ := hf
      obtain ⟨p2, q2, e2, n2⟩ := h1
      rw [e1] at e2
      clear e1 h2
      induction p1 generalizing p2 with
      | nil =>
        cases p2 with
        | nil => simp at e2; exact e2.1
        | cons a p2 => rw [List.nil_append, List.cons_append] at e2; exact absurd (by rw [← (List.cons.inj e2).1]) (n2 a (by simp))
      | cons a p1 ih =>
        cases p2 with
        | nil => rw [List.nil_append, List.cons_append] at e2; exact absurd (by rw [(List.cons.inj e2).1]) (n1 a (by simp))
        | cons b p2 => exact ih (fun e he => n1 e (by simp [he])) p2 (List.cons.inj e2).2 (fun e he => n2 e (by simp [he]))
    rw [h2]
    congr 2
    refine List.map_congr_left fun r hr => ?_
    rw [hc r hr, hcc]
  · obtain ⟨pre, post, e, -⟩ := hf
    exact absurd rfl (h1 (posid, c) (by rw [e]; simp))

/-! ### Measured positions -/

/-- What a row gets. -/
noncomputable def target (d : Ptl2fp.Dict) (r2z : ℝ → ℝ) (names : Names) (r : Row) : Except PyErr (ℝ × ℝ) := do
  let z ← zOf names r
  toPtl d r2z r.petal r.fp z

theorem step_ok (d : Ptl2fp.Dict) (r2z : ℝ → ℝ) (names : Names) (rows : List Row) (v g : Row → ℝ × ℝ) (p : ℕ)
    (h : ∀ r ∈ rows, target d r2z names r = .ok (v r)) :
    petalStep d r2z names rows (rows.map g) p = .ok (rows.map fun r => if r.petal = p then v r else g r) := by
  unfold petalStep
  rw [RayRun.mapM_iff]
  induction rows with
  | nil => exact .nil
  | cons r rows ih =>
    refine .cons ?_ (ih fun r hr => h r (List.mem_cons_of_mem _ hr))
    dsimp only
    by_cases hp : r.petal = p
    · rw [if_pos hp, if_pos hp, ← hp]
      exact h r List.mem_cons_self
    · rw [if_neg hp, if_neg hp]

theorem fold_ok (d : Ptl2fp.Dict) (r2z : ℝ → ℝ) (names : Names) (rows : List Row) (v : Row → ℝ × ℝ)
    (h : ∀ r ∈ rows, target d r2z names r = .ok (v r)) (ps : List ℕ) : ∀ g : Row → ℝ × ℝ,
    ps.foldlM (petalStep d r2z names rows) (rows.map g) = .ok (rows.map fun r => if r.petal ∈ ps then v r else g r) := by
  induction ps with
  | nil => intro g; simp [pure, Except.pure]
  | cons p ps ih =>
    intro g
    rw [List.foldlM_cons, step_ok d r2z names rows v g p h]
    show ps.foldlM (petalStep d r2z names rows) _ = _
    rw [ih]
    congr 1
    refine List.map_congr_left fun r _ => ?_
    by_cases h1 : r.petal ∈ ps
    · rw [if_pos h1, if_pos (List.mem_cons_of_mem _ h1)]
    · rw [if_neg h1]
      by_cases h2 : r.petal = p
      · rw [if_pos h2, if_pos (by rw [h2]; exact List.mem_cons_self)]
      · rw [if_neg h2, if_neg (by simp [h1, h2])]

theorem fold_fails (d : Ptl2fp.Dict) (r2z : ℝ → ℝ) (names : Names) (rows : List Row) (r : Row) (hr : r ∈ rows)
    (h : ∀ v, target d r2z names r ≠ .ok v) (ps : List ℕ) (hp : r.petal ∈ ps) : ∀ (out l : List (ℝ × ℝ)), out.length = rows.length →
    ps.foldlM (petalStep d r2z names rows) out ≠ .ok l := by
  induction ps with
  | nil => simp at hp
  | cons p ps ih =>
    intro out l hl hok
    rw [List.foldlM_cons] at hok
    obtain ⟨m, h1, h2⟩ := (RayRun.bind_iff _ _ _).1 hok
    unfold petalStep at h1
    have hf := (RayRun.mapM_iff _ _ _).1 h1
    by_cases hrp : r.petal = p
    · obtain ⟨i, hi, e⟩ := List.mem_iff_getElem.1 hr
      have hz : (r, out[i]'(by rw [hl]; exact hi)) ∈ rows.zip out := by
        rw [List.mem_iff_getElem?]
        exact ⟨i, List.getElem?_zip_eq_some.2 ⟨by rw [List.getElem?_eq_getElem hi, e], List.getElem?_eq_getElem _⟩⟩
      obtain ⟨q, -, hq⟩ := FpMetrology.forall₂_mem hf hz
      dsimp only at hq
      rw [if_pos hrp, ← hrp] at hq
      exact h q hq
    · have hps : r.petal ∈ ps := by
        rcases List.mem_cons.1 hp with hp | hp
        · exact absurd hp hrp
        · exact hp
      have hlen : m.length = rows.length := by rw [← hf.length_eq, List.length_zip, hl, Nat.min_self]
      exact ih hps m l hlen h2

theorem measured_iff (d : Ptl2fp.Dict) (r2z : ℝ → ℝ) (names : Names) (rows : List Row) (l : List (ℝ × ℝ)) (h1 : names.ptl = false) (h2 : names.fp = true) :
    measured d r2z names rows = .ok l ↔ List.Forall₂ (fun r q => target d r2z names r = .ok q) rows l := by
  unfold measured
  rw [if_neg (by rw [h1]; simp), if_pos h2]
  by_cases hall : ∀ r ∈ rows, ∃ v, target d r2z names r = .ok v
  · choose! v hv using hall
    rw [fold_ok d r2z names rows v hv]
    have e : (rows.map fun r => if r.petal ∈ (rows.map Row.petal).dedup then v r else (0, 0)) = rows.map v := by
      refine List.map_congr_left fun r hr => if_pos ?_
      rw [List.mem_dedup]
      exact List.mem_map_of_mem hr
    rw [e]
    constructor
    · intro h
      rw [← Except.ok.inj h, List.forall₂_map_right_iff, List.forall₂_same]
      exact hv
    · intro h
      congr 1
      clear e
      induction h with
      | nil => rfl
      | @cons r q rows l g1 g2 ih =>
        rw [List.map_cons, ih (fun r hr => hv r (List.mem_cons_of_mem _ hr))]
        rw [hv r List.mem_cons_self] at g1
        rw [Except.ok.inj g1]
  · push Not at hall
    obtain ⟨r, hr, hne⟩ := hall
    constructor
    · intro h
      refine absurd h (fold_fails d r2z names rows r hr hne _ ?_ _ _ (by rw [List.length_map]))
      rw [List.mem_dedup]
      exact List.mem_map_of_mem hr
    · intro h
      obtain ⟨q, -, hq⟩ := FpMetrology.forall₂_mem h hr
      exact absurd hq (hne q)

theorem fp2ptl_iff (d : Ptl2fp.Dict) (petal : ℕ) (u V : Ptl2fp.V3) : Ptl2fp.fp2ptl d petal V = .ok u ↔ Ptl2fp.ptl2fp d petal u = .ok V := by
  constructor
  · intro h
    have := (C10_inverse d petal V).2
    rw [h] at this
    have hs : (d petal).isSome := by
      cases hd : d petal with
      | none => rw [Ptl2fp.fp2ptl, Ptl2fp.lookup, hd] at h; exact nomatch h
      | some a => rfl
    rw [if_pos hs] at this
    exact this
  · intro h
    have := (C10_inverse d petal u).1
    rw [h] at this
    have hs : (d petal).isSome := by
      cases hd : d petal with
      | none => rw [Ptl2fp.ptl2fp, Ptl2fp.lookup, hd] at h; exact nomatch h
      | some a => rfl
    rw [if_pos hs] at this
    exact this

/-- **C118**: the measured positions. The columns PTL_X, PTL_Y are taken as they are. Without them each row gets the point of its own petal which
`ptl2fp` takes to its X_FP, Y_FP, on the nominal focal surface; this works exactly when all petals are known. Without both the program ends with
code 12. -/
theorem C118_measured (d : Ptl2fp.Dict) (r2z : ℝ → ℝ) (names : Names) (rows : List Row) (l : List (ℝ × ℝ)) :
    (names.ptl = true → measured d r2z names rows = .ok (rows.map Row.ptl)) ∧
    (names.ptl = false → names.fp = true → names.zLow = false →
      (measured d r2z names rows = .ok l ↔ List.Forall₂ (fun r q => ∃ u : Fin 3 → ℝ,
        Ptl2fp.ptl2fp d r.petal u = .ok ![r.fp.1, r.fp.2, r2z (hypot r.fp.1 r.fp.2)] ∧ q = (u 0, u 1)) rows l) ∧
      ((∃ l, measured d r2z names rows = .ok l) ↔ ∀ r ∈ rows, (d r.petal).isSome)) ∧
    (names.ptl = false → names.fp = false → measured d r2z names rows = .error (.sysExit 12)) := by
  have ht : names.zLow = false → ∀ (r : Row) (q : ℝ × ℝ), target d r2z names r = .ok q ↔ ∃ u : Fin 3 → ℝ,
        Ptl2fp.ptl2fp d r.petal u = .ok ![r.fp.1, r.fp.2, r2z (hypot r.fp.1 r.fp.2)] ∧ q = (u 0, u 1) := by
    intro hz r q
    unfold target zOf
    rw [hz]
    show toPtl d r2z r.petal r.fp none = .ok q ↔ _
    unfold toPtl
    rw [RayRun.bind_iff]
    constructor
    · rintro ⟨u, h1, h2⟩
      exact ⟨u, (fp2ptl_iff _ _ _ _).1 h1, (Except.ok.inj h2).symm⟩
    · rintro ⟨u, h1, rfl⟩
      exact ⟨u, (fp2ptl_iff _ _ _ _).2 h1, rfl⟩
  refine ⟨fun h => by unfold measured; rw [if_pos h], fun h1 h2 hz => ⟨?_, ?_⟩,
    fun h1 h2 => by unfold measured; rw [if_neg (by rw [h1]; simp), if_neg (by rw [h2]; simp)]⟩
  · rw [measured_iff d r2z names rows l h1 h2]
    simp only [ht hz]
  · simp only [measured_iff d r2z names rows _ h1 h2, ht hz]
    constructor
    · rintro ⟨l, h⟩ r hr
      obtain ⟨q, -, u, hu, -⟩ := FpMetrology.forall₂_mem h hr
      cases hd : d r.petal with
      | none => rw [Ptl2fp.ptl2fp, Ptl2fp.lookup, hd] at hu; exact nomatch hu
      | some a => rfl
    · intro h
      induction rows with
      | nil => exact ⟨[], .nil⟩
      | cons r rows ih =>
        obtain ⟨l, hl⟩ := ih (fun r hr => h r (List.mem_cons_of_mem _ hr))
        have := (C10_inverse d r.petal ![r.fp.1, r.fp.2, r2z (hypot r.fp.1 r.fp.2)]).2
        rw [if_pos (h r List.mem_cons_self)] at this
        obtain ⟨u, -, hu⟩ := (RayRun.bind_iff _ _ _).1 this
        exact ⟨(u 0, u 1) :: l, .cons ⟨u, hu, rfl⟩ hl⟩

/-- **C118**: in a table with both columns z_FP and Z_FP the height used is Z_FP. -/
theorem C118_height_used (d : Ptl2fp.Dict) (r2z : ℝ → ℝ) (names : Names) (rows : List Row) (l : List (ℝ × ℝ)) (h1 : names.ptl = false) (h2 : names.fp = true)
    (h3 : names.zLow = true) (h4 : names.zUp = true) :
    measured d r2z names rows = .ok l ↔ List.Forall₂ (fun r q => ∃ u : Fin 3 → ℝ, Ptl2fp.ptl2fp d r.petal u = .ok ![r.fp.1, r.fp.2, r.z] ∧ q = (u 0, u 1)) rows l := by
  have ht : ∀ (r : Row) (q : ℝ × ℝ), target d r2z names r = .ok q ↔ ∃ u : Fin 3 → ℝ, Ptl2fp.ptl2fp d r.petal u = .ok ![r.fp.1, r.fp.2, r.z] ∧ q = (u 0, u 1) := by
    intro r q
    unfold target zOf
    rw [h3, h4]
    show toPtl d r2z r.petal r.fp (some r.z) = .ok q ↔ _
    unfold toPtl
    rw [RayRun.bind_iff]
    constructor
    · rintro ⟨u, h1, h2⟩
      exact ⟨u, (fp2ptl_iff _ _ _ _).1 h1, (Except.ok.inj h2).symm⟩
    · rintro ⟨u, h1, rfl⟩
      exact ⟨u, (fp2ptl_iff _ _ _ _).2 h1, rfl⟩
  rw [measured_iff d r2z names rows l h1 h2]
  simp only [ht]

/-- **C118** (finding) the height Z_FP of the spots is never used in a table with this column: the name looked for is `z_FP`. For a petal turned by 90
degrees about y the point drawn is off by the height of the spot above the nominal surface. -/
theorem C118_height_ignored (d : Ptl2fp.Dict) (r2z : ℝ → ℝ) (names : Names) (rows : List Row) (f : Row → ℝ) (hz : names.zLow = false) :
    measured d r2z names (rows.map fun r => { r with z := f r }) = measured d r2z names rows ∧
    ∀ r : Row, rows = [r] → names.ptl = false → names.fp = true → d r.petal = some ⟨0, Real.pi / 2, 0, 0, 0, 0⟩ →
      measured d r2z names rows = .ok [(-r2z (hypot r.fp.1 r.fp.2), r.fp.2)] ∧
      Ptl2fp.fp2ptl d r.petal ![r.fp.1, r.fp.2, r.z] = .ok ![-r.z, r.fp.2, r.fp.1] := by
  have key : ∀ (petal : ℕ) (x y z : ℝ), d petal = some ⟨0, Real.pi / 2, 0, 0, 0, 0⟩ → Ptl2fp.fp2ptl d petal ![x, y, z] = .ok ![-z, y, x] := by
    intro petal x y z hd
    unfold Ptl2fp.fp2ptl Ptl2fp.lookup
    rw [hd]
    show Except.ok _ = _
    congr 1
    have hR : (⟨0, Real.pi / 2, 0, 0, 0, 0⟩ : Ptl2fp.Alignment).R = !![0, 0, 1; 0, 1, 0; -1, 0, 0] := by
      unfold Ptl2fp.Alignment.R Ptl2fp.Rxyz Ptl2fp.Rx Ptl2fp.Ry Ptl2fp.Rz
      ext i j
      fin_cases i <;> fin_cases j <;> simp [Matrix.mul_apply, Fin.sum_univ_three]
    rw [hR]
    ext i
    fin_cases i <;> simp [Matrix.mulVec, dotProduct, Fin.sum_univ_three, Ptl2fp.Alignment.T]
  constructor
  · by_cases h1 : names.ptl = true
    · unfold measured
      rw [if_pos h1, if_pos h1, List.map_map]
      rfl
    · by_cases h2 : names.fp = true
      · have h1' : names.ptl = false := by simpa using h1
        have hiff : ∀ l, measured d r2z names (rows.map fun r => { r with z := f r }) = .ok l ↔ measured d r2z names rows = .ok l := by
          intro l
          rw [((C118_measured d r2z names _ l).2.1 h1' h2 hz).1, ((C118_measured d r2z names rows l).2.1 h1' h2 hz).1, List.forall₂_map_left_iff]
        have herr : ∀ (rows : List Row) (e : PyErr), measured d r2z names rows = .error e → e = .keyError := by
          intro rows e he
          unfold measured at he
          rw [if_neg h1, if_pos h2] at he
          generalize (rows.map fun _ => ((0 : ℝ), (0 : ℝ))) = out at he
          generalize (rows.map Row.petal).dedup = ps at he
          induction ps generalizing out with
          | nil => exact nomatch he
          | cons p ps ih =>
            rw [List.foldlM_cons] at he
            cases hs : petalStep d r2z names rows out p with
            | ok m => rw [hs] at he; exact ih m he
            | error e' =>
              rw [hs] at he
              have hee : e' = e := Except.error.inj he
              subst hee
              unfold petalStep at hs
              generalize rows.zip out = ro at hs
              clear he ih
              induction ro with
              | nil => exact nomatch hs
              | cons a ro ih =>
                rw [List.mapM_cons] at hs
                split_ifs at hs with hp
                · have hzz : zOf names a.1 = .ok none := by unfold zOf; rw [hz]; rfl
                  rw [hzz] at hs
                  cases hl : toPtl d r2z p a.1.fp none with
                  | error e2 =>
                    have : e2 = .keyError := by
                      unfold toPtl Ptl2fp.fp2ptl Ptl2fp.lookup at hl
                      cases hd : d p with
                      | none => rw [hd] at hl; exact (Except.error.inj hl).symm
                      | some al => rw [hd] at hl; exact nomatch hl
                    have hs' : (Except.error e2 : Except PyErr (List (ℝ × ℝ))) = .error e' := by
                      rw [← hs]
                      show _ = (toPtl d r2z p a.1.fp none >>= _)
                      rw [hl]; rfl
                    rw [← Except.error.inj hs', this]
                  | ok v =>
                    apply ih
                    have hs' : (toPtl d r2z p a.1.fp none >>= fun v => (List.mapM (fun ro : Row × (ℝ × ℝ) =>
                        if ro.1.petal = p then do
                          let z ← zOf names ro.1
                          toPtl d r2z p ro.1.fp z
                        else .ok ro.2) ro) >>= fun t => pure (v :: t)) = .error e' := hs
                    rw [hl] at hs'
                    cases hm : (List.mapM (fun ro : Row × (ℝ × ℝ) =>
                        if ro.1.petal = p then do
                          let z ← zOf names ro.1
                          toPtl d r2z p ro.1.fp z
                        else .ok ro.2) ro) with
                    | ok t => rw [hm] at hs'; exact nomatch hs'
                    | error e3 => rw [hm] at hs'; exact hs'
                · apply ih
                  cases hm : (List.mapM (fun ro : Row × (ℝ × ℝ) =>
                      if ro.1.petal = p then do
                        let z ← zOf names ro.1
                        toPtl d r2z p ro.1.fp z
                      else .ok ro.2) ro) with
                  | ok t => rw [hm] at hs; exact nomatch hs
                  | error e3 => rw [hm] at hs; exact hs
        cases hm : measured d r2z names rows with
        | ok l => exact (hiff l).2 hm
        | error e =>
          cases hm' : measured d r2z names (rows.map fun r => { r with z := f r }) with
          | ok l => rw [(hiff l).1 hm'] at hm; exact nomatch hm
          | error e' => rw [herr _ _ hm, herr _ _ hm']
      · unfold measured
        rw [if_neg h1, if_neg h2, if_neg h1, if_neg h2]
  · intro r hr h1 h2 hd
    refine ⟨?_, key _ _ _ _ hd⟩
    subst hr
    rw [((C118_measured d r2z names [r] _).2.1 h1 h2 hz).1]
    refine .cons ⟨![-r2z (hypot r.fp.1 r.fp.2), r.fp.2, r.fp.1], ?_, rfl⟩ .nil
    rw [← fp2ptl_iff]
    exact key _ _ _ _ hd

theorem petalStep_low (d : Ptl2fp.Dict) (r2z : ℝ → ℝ) (names : Names) (h3 : names.zLow = true) (h4 : names.zUp = false) (p : ℕ) (rows : List Row) (out : List (ℝ × ℝ))
    (hl : out.length = rows.length) (hp : p ∈ rows.map Row.petal) : petalStep d r2z names rows out p = .error .keyError := by
  unfold petalStep
  induction rows generalizing out with
  | nil => cases hp
  | cons r rows ih =>
    cases out with
    | nil => cases hl
    | cons o out =>
      rw [List.zip_cons_cons, List.mapM_cons]
      by_cases h : r.petal = p
      · rw [if_pos h]
        unfold zOf
        rw [h3, h4]
        rfl
      · rw [if_neg h, ih out (Nat.succ.inj hl) ((List.mem_cons.1 hp).resolve_left fun e => h e.symm)]
        rfl

/-- **C118** (finding) a table with a column `z_FP` but without `Z_FP` ends in a KeyError, unless it has PTL_X. -/
theorem C118_low_z (d : Ptl2fp.Dict) (r2z : ℝ → ℝ) (names : Names) (r : Row) (rest : List Row) (h1 : names.ptl = false) (h2 : names.fp = true)
    (h3 : names.zLow = true) (h4 : names.zUp = false) : measured d r2z names (r :: rest) = .error .keyError := by
  unfold measured
  rw [h1, h2]
  show List.foldlM _ _ _ = _
  rcases hu : ((r :: rest).map Row.petal).dedup with _ | ⟨p, ps⟩
  · have := List.mem_dedup.2 (show r.petal ∈ (r :: rest).map Row.petal from List.mem_map_of_mem List.mem_cons_self)
    rw [hu] at this
    cases this
  · have hp : p ∈ (r :: rest).map Row.petal := List.mem_dedup.1 (by rw [hu]; exact List.mem_cons_self)
    rw [List.foldlM_cons, petalStep_low d r2z names h3 h4 p (r :: rest) _ (by simp) hp]
    rfl

/-! ### The image -/

theorem basename_eq (dir b : PyStr) (hd : dir = [] ∨ ∃ u, dir = u ++ ['/']) (hb : '/' ∉ b) : basename (dir ++ b) = b := by
  unfold basename
  rw [List.reverse_append, List.takeWhile_append_of_pos (by
    intro c hc
    rw [List.mem_reverse] at hc
    exact decide_eq_true (fun e : c = '/' => hb (e ▸ hc)))]
  have : dir.reverse.takeWhile (fun c => decide (c ≠ '/')) = [] := by
    rcases hd with rfl | ⟨u, rfl⟩
    · rfl
    · rw [List.reverse_append]
      rfl
  rw [this, List.append_nil, List.reverse_reverse]

/-- The path of a file: a directory (empty or ending with a slash), a name and an ending. -/
def IsFile (path dir name : PyStr) : Prop :=
  path = dir ++ (name ++ ".csv".toList) ∧ (dir = [] ∨ ∃ u, dir = u ++ ['/']) ∧ '/' ∉ name ∧ ∃ c ∈ name, c ≠ '.'

theorem file_parts {path dir name : PyStr} (h : IsFile path dir name) :
    (splitext (basename path)).1 = name ∧ stem path = dir ++ name := by
  obtain ⟨rfl, hd, hn, hc⟩ := h
  have hb : basename (dir ++ (name ++ ".csv".toList)) = name ++ ".csv".toList := by
    refine basename_eq _ _ hd ?_
    intro hm
    rcases List.mem_append.1 hm with hm | hm
    · exact hn hm
    · revert hm; decide
  have hs : splitext (name ++ ".csv".toList) = (name, ".csv".toList) := (PosparamsJobs.splitext_csv _ _).2 ⟨rfl, hc⟩
  constructor
  · rw [hb, hs]
  · unfold stem
    rw [hb, hs]
    dsimp only
    rw [List.length_append, Nat.add_sub_cancel, List.take_left]

/-- **C118**: the image. With `--save` it is the file given, or the name of the input with the ending `png` in the directory given, or next to the
input; without `--save` none is written, whatever else is given. -/
theorem C118_image (a : Args) (dir name : PyStr) (h : IsFile a.infile dir name) :
    (a.save = false → image a = none) ∧
    (a.save = true → ∀ f, a.outfile = some f → image a = some f) ∧
    (a.save = true → a.outfile = none → a.outdir = none → image a = some (dir ++ name ++ ".png".toList)) ∧
    (a.save = true → a.outfile = none → ∀ o c, a.outdir = some (o ++ [c]) → c ≠ '/' → image a = some (o ++ [c] ++ '/' :: (name ++ ".png".toList))) ∧
    (a.save = true → a.outfile = none → ∀ o, a.outdir = some (o ++ ['/']) → image a = some (o ++ ['/'] ++ (name ++ ".png".toList))) := by
  obtain ⟨h1, h2⟩ := file_parts h
  unfold image join
  refine ⟨fun h => by rw [if_neg (by rw [h]; simp)], fun h f hf => by rw [if_pos h, hf], fun h hf hd => ?_, fun h hf o c hd hc => ?_, fun h hf o hd => ?_⟩
  · rw [if_pos h, hf, hd]
    dsimp only
    rw [h2]
  · rw [if_pos h, hf, hd]
    dsimp only
    rw [h1, List.getLast?_concat]
    dsimp only
    rw [if_neg hc]
  · rw [if_pos h, hf, hd]
    dsimp only
    rw [h1, List.getLast?_concat]
    dsimp only
    rw [if_pos rfl]

/-- **C118**: images written next to their inputs do not overwrite each other. -/
theorem C118_distinct (a b : Args) (dir name dir' name' : PyStr) (ha : IsFile a.infile dir name) (hb : IsFile b.infile dir' name')
    (h : a.save = true ∧ a.outfile = none ∧ a.outdir = none) (h' : b.save = true ∧ b.outfile = none ∧ b.outdir = none) :
    image a = image b ↔ a.infile = b.infile := by
  rw [(C118_image a dir name ha).2.2.1 h.1 h.2.1 h.2.2, (C118_image b dir' name' hb).2.2.1 h'.1 h'.2.1 h'.2.2, ha.1, hb.1, ← List.append_assoc,
    ← List.append_assoc, Option.some.injEq, List.append_left_inj, List.append_left_inj]

/-- **C118** (finding) with `--outdir` inputs of the same name in different directories have the same image. -/
theorem C118_overwritten (a b : Args) (dir dir' name : PyStr) (ha : IsFile a.infile dir name) (hb : IsFile b.infile dir' name) (o : PyStr)
    (h : a.save = true ∧ a.outfile = none ∧ a.outdir = some o) (h' : b.save = true ∧ b.outfile = none ∧ b.outdir = some o) : image a = image b := by
  unfold image
  rw [if_pos h.1, if_pos h'.1, h.2.1, h.2.2, h'.2.1, h'.2.2]
  dsimp only
  rw [(file_parts ha).1, (file_parts hb).1]

/-- The names of files of positioners are of this form. -/
example : IsFile "data/M02012.csv".toList "data/".toList "M02012".toList := ⟨rfl, Or.inr ⟨"data".toList, rfl⟩, by decide, 'M', by decide, by decide⟩

/-- **C118**: the whole script. Asking to save with both a file and a directory ends it with code 12 before anything is read; no selected moves end it
with code 0. What is drawn otherwise: the positions measured, the positions expected with the calibrations of the rows, and those with the fit
of the positioner of the first row. -/
theorem C118_run (d : Ptl2fp.Dict) (r2z : ℝ → ℝ) (a : Args) (names : Names) (rows : List Row) (param : Option (List (PyStr × Cal))) :
    (a.save = true ∧ a.outfile ≠ none ∧ a.outdir ≠ none → run d r2z a names rows param = .error (.sysExit 12)) ∧
    (¬ (a.save = true ∧ a.outfile ≠ none ∧ a.outdir ≠ none) → rows = [] → run d r2z a names rows param = .error (.sysExit 0)) ∧
    (¬ (a.save = true ∧ a.outfile ≠ none ∧ a.outdir ≠ none) → ∀ r rest, rows = r :: rest → ∀ pl, run d r2z a names rows param = .ok pl ↔
      measured d r2z names rows = .ok pl.measured ∧ fitted param r.posid rows = .ok pl.fitted ∧ pl.image = image a ∧
      pl.expected = if a.noDb = false ∧ names.calib = true then some (rows.map fun r => At r.cal r.t r.p) else none) := by
  have hb : (a.save && a.outfile.isSome && a.outdir.isSome) = true ↔ a.save = true ∧ a.outfile ≠ none ∧ a.outdir ≠ none := by
    rw [Bool.and_eq_true, Bool.and_eq_true, Option.isSome_iff_ne_none, Option.isSome_iff_ne_none, and_assoc]
  unfold run
  refine ⟨fun h => by rw [if_pos (hb.2 h)], fun h hr => by rw [if_neg (fun h' => h (hb.1 h')), hr], fun h r rest hr pl => ?_⟩
  rw [if_neg (fun h' => h (hb.1 h'))]
  subst hr
  dsimp only
  rw [C118_expected, RayRun.bind_iff]
  constructor
  · rintro ⟨e, he, h1⟩
    obtain ⟨m, hm, h2⟩ := (RayRun.bind_iff _ _ _).1 h1
    obtain ⟨f, hf, h3⟩ := (RayRun.bind_iff _ _ _).1 h2
    rw [← Except.ok.inj h3]
    exact ⟨hm, hf, rfl, (Except.ok.inj he).symm⟩
  · rintro ⟨hm, hf, hi, he⟩
    refine ⟨_, rfl, (RayRun.bind_iff _ _ _).2 ⟨_, hm, (RayRun.bind_iff _ _ _).2 ⟨_, hf, ?_⟩⟩⟩
    rw [← hi, ← he]
    rfl

end Verif.Props.PlotPosmoves
