import Verif.Props.RayTurn

/-!
# C94: the coordinate breaks of the dispersion corrector

The roll of a surface without spider has no effect.  The two pairs of coordinate breaks that
`modifyADC` rolls by opposite angles have the effect of turning the elements between them about
the axis of the telescope.
-/

namespace Verif.Props.RayAdc

open Verif.Py Verif.RayTrace
open Verif.Props.RayFrames Verif.Props.RayTurn

/-! ## Specification -/

/-- No spider. -/
def Plain (S : Surf) : Prop := S.legs < 1 ∨ S.legWidth ≤ 0

/-- A surface centred on the axis of the telescope and not tilted. -/
def OnAxis (S : Surf) : Prop :=
  S.vertex.x = 0 ∧ S.vertex.y = 0 ∧ S.tilt = 0 ∧ S.pitch = 0

/-- The entrance (action 4) of a coordinate break on the axis. -/
structure BreakIn (I : Surf) : Prop where
  act : I.action = 4
  axis : OnAxis I
  roll : I.roll = 0
  plain : Plain I

/-- The exit (action 5) of a coordinate break with entrance `I`, rolled by `a` degrees. -/
structure BreakOut (I O : Surf) (a : ℝ) : Prop where
  act : O.action = 5
  place : O.vertex = I.vertex
  tilt : O.tilt = 0
  pitch : O.pitch = 0
  roll : O.roll = a

/-! ## The final ray, surface by surface -/

theorem final_nil (refr : PyStr → Except PyErr ℝ) (h : Hit) :
    final refr [] h = .ok (some h.lab) := by
  unfold final runOneRay runFrom
  rfl

theorem final_cons (refr : PyStr → Except PyErr ℝ) (S : Surf) (l : List Surf) (h : Hit) :
    final refr (S :: l) h =
      match passOne refr S l.head? h with
      | .error e => .error e
      | .ok (.OK, q) => final refr l q
      | .ok (_, _) => .ok none := by
  unfold final runOneRay
  rw [runFrom]
  cases hp : passOne refr S l.head? h with
  | error e => rfl
  | ok cq =>
    obtain ⟨c, q⟩ := cq
    cases c with
    | OK =>
      dsimp only
      cases runFrom refr l q with
      | error e => rfl
      | ok t =>
        dsimp only
        simp only [List.length_cons, Nat.add_right_cancel_iff]
        cases t with
        | nil => rfl
        | cons b t =>
          rw [List.getLastD_cons, List.getLastD_cons]
    | _ => simp

theorem pass_lab (refr : PyStr → Except PyErr ℝ) (S : Surf) (ha : S.action ≠ 5)
    (next : Option Surf) (h h' : Hit) (hl : h.lab = h'.lab) :
    passOne refr S next h = passOne refr S next h' := by
  unfold passOne
  rw [if_neg ha, if_neg ha, hl]

theorem final_lab (refr : PyStr → Except PyErr ℝ) (l : List Surf)
    (ha : ∀ S, l.head? = some S → S.action ≠ 5) (h h' : Hit) (hl : h.lab = h'.lab) :
    final refr l h = final refr l h' := by
  cases l with
  | nil => rw [final_nil, final_nil, hl]
  | cons S l => rw [final_cons, final_cons, pass_lab refr S (ha S rfl) _ h h' hl]

theorem redirect_break (refr : PyStr → Except PyErr ℝ) (S : Surf) (ha : S.action = 4)
    (next : Option Surf) (r : Ray) : redirect refr S next r = .ok (.OK, r) := by
  unfold redirect
  cases next with
  | none => rfl
  | some T => simp [ha]

theorem pass_break (refr : PyStr → Except PyErr ℝ) (S : Surf) (ha : S.action = 4)
    (next next' : Option Surf) (h : Hit) : passOne refr S next h = passOne refr S next' h := by
  unfold passOne
  simp only [redirect_break refr S ha]

theorem redirect_glass (refr : PyStr → Except PyErr ℝ) (S : Surf) (next next' : Option Surf)
    (hn : next.map Surf.glass = next'.map Surf.glass) (r : Ray) :
    redirect refr S next r = redirect refr S next' r :=
  redirect_same refr S S.vertex S.tilt S.pitch S.roll next' next hn.symm r

theorem pass_glass (refr : PyStr → Except PyErr ℝ) (S : Surf) (next next' : Option Surf)
    (hn : next.map Surf.glass = next'.map Surf.glass) (h : Hit) :
    passOne refr S next h = passOne refr S next' h := by
  unfold passOne
  simp only [redirect_glass refr S next next' hn]

/-- What comes after decides nothing before. -/
theorem final_prefix (refr : PyStr → Except PyErr ℝ) (pre X Y : List Surf)
    (hg : X.head?.map Surf.glass = Y.head?.map Surf.glass)
    (hXY : ∀ h, final refr X h = final refr Y h) (h : Hit) :
    final refr (pre ++ X) h = final refr (pre ++ Y) h := by
  induction pre generalizing h with
  | nil => exact hXY h
  | cons S l ih =>
    rw [List.cons_append, List.cons_append, final_cons, final_cons]
    have hn : (l ++ X).head?.map Surf.glass = (l ++ Y).head?.map Surf.glass := by
      cases l with
      | nil => exact hg
      | cons T l => rfl
    rw [pass_glass refr S _ _ hn]
    simp only [ih]

/-! ## The roll of a surface without spider -/

/-- **C94** (roll). The roll of a surface without spider decides neither whether a ray passes nor
where it goes: the code and the ray in the lab are the same for every roll.  (`CBout` is not such
a surface.) -/
theorem C94_roll (refr : PyStr → Except PyErr ℝ) (S : Surf) (o : ℝ) (ha : S.action ≠ 5)
    (hs : Plain S) (next : Option Surf) (prev : Hit) :
    (passOne refr { S with roll := o } next prev).map (fun ch => (ch.1, ch.2.lab)) =
      (passOne refr S next prev).map (fun ch => (ch.1, ch.2.lab)) := by
  rw [pass_roll refr S o ha hs]
  cases passOne refr S next prev with
  | error e => rfl
  | ok ch => rfl

/-- The rows of a ray as rays in the lab. -/
noncomputable def labRows (refr : PyStr → Except PyErr ℝ) (surfs : List Surf) (start : Hit) :
    Except PyErr (List Ray) :=
  (runFrom refr surfs start).map (fun rows => rows.map Hit.lab)

/-- `S'` is `S` with some other roll. -/
def Rolled (S S' : Surf) : Prop := ∃ o, S' = { S with roll := o }

theorem mem_right {α β : Type} {R : α → β → Prop} {l : List α} {l' : List β}
    (h : List.Forall₂ R l l') : ∀ y ∈ l', ∃ x ∈ l, R x y := by
  induction h with
  | nil => intro y hy; cases hy
  | cons h1 _ ih =>
    intro y hy
    rcases List.mem_cons.1 hy with rfl | hy
    · exact ⟨_, List.mem_cons_self, h1⟩
    · obtain ⟨x, hx, hr⟩ := ih y hy
      exact ⟨x, List.mem_cons_of_mem _ hx, hr⟩

theorem labRows_lab (refr : PyStr → Except PyErr ℝ) (l : List Surf)
    (ha : ∀ S ∈ l, S.action ≠ 5) (h h' : Hit) (hl : h.lab = h'.lab) :
    labRows refr l h = labRows refr l h' := by
  cases l with
  | nil => rfl
  | cons S l =>
    unfold labRows
    rw [runFrom, runFrom, pass_lab refr S (ha S List.mem_cons_self) _ h h' hl]

theorem labRows_cons (refr : PyStr → Except PyErr ℝ) (S : Surf) (l : List Surf) (h : Hit) :
    labRows refr (S :: l) h =
      match passOne refr S l.head? h with
      | .error e => .error e
      | .ok (.OK, q) => (labRows refr l q).map (fun t => q.lab :: t)
      | .ok (_, _) => .ok [] := by
  unfold labRows
  rw [runFrom]
  cases passOne refr S l.head? h with
  | error e => rfl
  | ok cq =>
    obtain ⟨c, q⟩ := cq
    cases c with
    | OK =>
      dsimp only
      cases runFrom refr l q <;> rfl
    | _ => rfl

/-- **C94** (rolls). In a telescope without spiders and without coordinate breaks the rolls have
no effect on the path of any ray. -/
theorem C94_rolls (refr : PyStr → Except PyErr ℝ) (surfs surfs' : List Surf)
    (h : List.Forall₂ Rolled surfs surfs')
    (hs : ∀ S ∈ surfs, S.action ≠ 5 ∧ Plain S) (start : Hit) :
    labRows refr surfs' start = labRows refr surfs start := by
  induction h generalizing start with
  | nil => rfl
  | @cons S S' l l' hS hl ih =>
    obtain ⟨o, rfl⟩ := hS
    have hact : ∀ T ∈ l', T.action ≠ 5 := by
      intro T hT
      obtain ⟨T0, hT0, o', rfl⟩ := mem_right hl T hT
      exact (hs T0 (List.mem_cons_of_mem _ hT0)).1
    have hn : l'.head?.map Surf.glass = l.head?.map Surf.glass := by
      cases hl with
      | nil => rfl
      | cons hT _ => obtain ⟨o', rfl⟩ := hT; rfl
    obtain ⟨ha, hp⟩ := hs S List.mem_cons_self
    rw [labRows_cons, labRows_cons, pass_glass refr _ _ _ hn, pass_roll refr S o ha hp]
    cases passOne refr S l.head? start with
    | error e => rfl
    | ok cq =>
      obtain ⟨c, q⟩ := cq
      cases c with
      | OK =>
        simp only [Except.map]
        rw [labRows_lab refr l' hact (spinLoc (S.roll - o) q) q rfl,
          ih (fun T hT => hs T (List.mem_cons_of_mem _ hT)) q]
        rfl
      | _ => rfl

theorem axis_Z (S : Surf) (h : OnAxis S) (a : ℝ) : (Z a).mul S.vertex = S.vertex := by
  obtain ⟨hx, hy, -, -⟩ := h
  rw [Z_mul, hx, hy]
  ext
  · simp [hx]
  · simp [hy]
  · rfl

theorem axis_E (S : Surf) (h : OnAxis S) : S.E = Z S.roll := by
  obtain ⟨-, -, ht, hp⟩ := h
  unfold Surf.E Z
  rw [ht, hp]

theorem turned_axis (S : Surf) (h : OnAxis S) (hs : Plain S) (a : ℝ) :
    Turned (Z a) S { S with roll := a + S.roll } := by
  refine ⟨rfl, ?_, ?_, hs⟩
  · have h' : OnAxis { S with roll := a + S.roll } := h
    rw [axis_E _ h', axis_E _ h]
    exact Z_comp _ _
  · rw [axis_Z S h]

/-- **C94** (symmetric telescope). If all surfaces are centred on the axis, none is tilted, has a
spider or is the exit of a coordinate break, then turning the incoming ray about the axis turns
its whole path about the axis. -/
theorem C94_symmetric (refr : PyStr → Except PyErr ℝ) (surfs : List Surf)
    (hs : ∀ S ∈ surfs, OnAxis S ∧ Plain S ∧ S.action ≠ 5) (a : ℝ) (start : Hit) :
    labRows refr surfs (turnHit (Z a) start) =
      (labRows refr surfs start).map (fun rows => rows.map (turn (Z a))) := by
  have hT : List.Forall₂ (Turned (Z a)) surfs
      (surfs.map fun S => { S with roll := a + S.roll }) := by
    rw [List.forall₂_map_right_iff, List.forall₂_same]
    intro S hS
    exact turned_axis S (hs S hS).1 (hs S hS).2.1 a
  have hR : List.Forall₂ Rolled surfs (surfs.map fun S => { S with roll := a + S.roll }) := by
    rw [List.forall₂_map_right_iff, List.forall₂_same]
    intro S _
    exact ⟨_, rfl⟩
  rw [← C94_rolls refr _ _ hR (fun S hS => ⟨(hs S hS).2.2, (hs S hS).2.1⟩)]
  unfold labRows
  rw [C94_turn refr (Z a) _ _ hT]
  cases runFrom refr surfs start with
  | error e => rfl
  | ok rows =>
    simp only [Except.map, List.map_map]
    rfl

/-! ## Coordinate breaks -/

theorem turned_symm (a : ℝ) (S S' : Surf) (h : Turned (Z a) S S') : Turned (Z (-a)) S' S := by
  have hz : mat (Z (-a)) * mat (Z a) = 1 := by
    rw [← Z_comp, neg_add_cancel, mat_Z]
    have h0 : radians 0 = 0 := by unfold radians; ring
    rw [h0]
    unfold rotZ
    ext i j
    fin_cases i <;> fin_cases j <;> simp
  refine ⟨?_, ?_, ?_, ?_⟩
  · rw [h.same]
  · rw [h.frame, ← mul_assoc, hz, one_mul]
  · rw [h.place, ← mul_comp (Z (-a)) (Z a) (Z (-a + a)) (Z_comp _ _), neg_add_cancel, Z_zero]
  · rw [h.same]; exact h.nospider

theorem out_turns (I O : Surf) (a : ℝ) (hI : BreakIn I) (hO : BreakOut I O a) (r : Ray) :
    vxtolab O (labtovx I r) = turn (Z a) r := by
  have hT : Turned (Z a) I { I with roll := a + I.roll } := turned_axis I hI.axis hI.plain a
  have hv : vxtolab O (labtovx I r) = vxtolab { I with roll := a + I.roll } (labtovx I r) := by
    have hE : O.E = { I with roll := a + I.roll }.E := by
      unfold Surf.E
      rw [hO.tilt, hO.pitch, hO.roll]
      dsimp only
      rw [hI.axis.2.2.1, hI.axis.2.2.2, hI.roll, add_zero]
    unfold vxtolab
    rw [hE, hO.place]
  rw [hv, vxtolab_turn _ _ _ hT, C91_round_trip]

theorem out_pass (refr : PyStr → Except PyErr ℝ) (O : Surf) (hO : O.action = 5)
    (next : Option Surf) (h : Hit) :
    passOne refr O next h = .ok (.OK, ⟨vxtolab O h.loc, h.loc⟩) := by
  unfold passOne
  rw [if_pos hO]

/-- From inside the pair of breaks to the end. -/
theorem inside (refr : PyStr → Except PyErr ℝ) (a : ℝ) (I O : Surf) (hI : BreakIn I)
    (hO : BreakOut I O a) (rest : List Surf) (hrest : ∀ S, rest.head? = some S → S.action ≠ 5)
    (els els' : List Surf) (hels : List.Forall₂ (Turned (Z a)) els els') (h : Hit) :
    final refr (els ++ I :: O :: rest) (turnHit (Z (-a)) h) = final refr (els' ++ I :: rest) h := by
  induction hels generalizing h with
  | nil =>
    rw [List.nil_append, List.nil_append, final_cons, final_cons]
    set J : Surf := { I with roll := a + I.roll } with hJ
    have hT : Turned (Z (-a)) J I := turned_symm a I J (turned_axis I hI.axis hI.plain a)
    have h5 : I.action ≠ 5 := by rw [hI.act]; norm_num
    rw [pass_turn refr (Z (-a)) J I hT _ _ rfl, pass_roll refr I (a + I.roll) h5 hI.plain,
      pass_break refr I hI.act (O :: rest).head? rest.head?]
    cases hp : passOne refr I rest.head? h with
    | error e => rfl
    | ok cq =>
      obtain ⟨c, q⟩ := cq
      cases c with
      | OK =>
        simp only [Except.map]
        rw [final_cons, out_pass refr O hO.act]
        dsimp only
        have hq := (RayPath.C93_step refr I _ h q h5 hp).2
        apply final_lab refr rest hrest
        change vxtolab O (turn (Z (I.roll - (a + I.roll))) q.loc) = q.lab
        have hv : ∀ r, vxtolab O r = vxtolab J r := by
          intro r
          have hE : O.E = J.E := by
            unfold Surf.E
            rw [hO.tilt, hO.pitch, hO.roll, hJ]
            dsimp only
            rw [hI.axis.2.2.1, hI.axis.2.2.2, hI.roll, add_zero]
          unfold vxtolab
          rw [hE, hO.place]
        rw [hv, hJ, vxtolab_roll, hq, C91_round_trip]
      | _ => rfl
  | @cons S S' l l' hS hl ih =>
    rw [List.cons_append, List.cons_append, final_cons, final_cons]
    have hT := turned_symm a S S' hS
    have hn : (l' ++ I :: rest).head?.map Surf.glass =
        (l ++ I :: O :: rest).head?.map Surf.glass := by
      cases hl with
      | nil => rfl
      | cons hT _ =>
        simp only [List.cons_append, List.head?_cons, Option.map_some]
        rw [hT.same]
    rw [pass_turn refr (Z (-a)) S' S hT _ _ hn]
    cases passOne refr S' (l' ++ I :: rest).head? h with
    | error e => rfl
    | ok cq =>
      obtain ⟨c, q⟩ := cq
      cases c with
      | OK => exact ih q
      | _ => rfl

/-- **C94** (coordinate breaks). A pair of coordinate breaks on the axis, the first rolled by `-a`
and the second by `a`, with elements between them: for every ray the result is that of the
telescope without the exits of the breaks in which the elements between them are turned by `a`
degrees about the axis of the telescope, whatever is before and after. -/
theorem C94_breaks (refr : PyStr → Except PyErr ℝ) (a : ℝ) (pre els els' rest : List Surf)
    (I O I₂ O₂ : Surf) (hI : BreakIn I) (hO : BreakOut I O (-a)) (hI₂ : BreakIn I₂)
    (hO₂ : BreakOut I₂ O₂ a) (hels : List.Forall₂ (Turned (Z a)) els els')
    (hrest : ∀ S, rest.head? = some S → S.action ≠ 5) (start : Hit) :
    final refr (pre ++ I :: O :: (els ++ I₂ :: O₂ :: rest)) start =
      final refr (pre ++ I :: (els' ++ I₂ :: rest)) start := by
  refine final_prefix refr pre (I :: O :: (els ++ I₂ :: O₂ :: rest)) (I :: (els' ++ I₂ :: rest)) rfl
    (fun h => ?_) start
  rw [final_cons, final_cons, pass_break refr I hI.act _ (els' ++ I₂ :: rest).head?]
  have h5 : I.action ≠ 5 := by rw [hI.act]; norm_num
  cases hp : passOne refr I (els' ++ I₂ :: rest).head? h with
  | error e => rfl
  | ok cq =>
    obtain ⟨c, q⟩ := cq
    cases c with
    | OK =>
      dsimp only
      rw [final_cons, out_pass refr O hO.act]
      dsimp only
      have hq := (RayPath.C93_step refr I _ h q h5 hp).2
      rw [← inside refr a I₂ O₂ hI₂ hO₂ rest hrest els els' hels q]
      have : (⟨vxtolab O q.loc, q.loc⟩ : Hit) = turnHit (Z (-a)) q := by
        unfold turnHit
        rw [← out_turns I O (-a) hI hO, ← hq]
      rw [this]
    | _ => rfl

/-- **C94** (dispersion corrector). A telescope laid out as that of DESI: nine surfaces, then two
elements of two surfaces, each between two coordinate breaks on the axis, then the rest.  After
`modifyADC adc1 adc2` every ray ends as in the telescope in which the first element is turned by
`adc1` degrees about the axis and the second by `adc2`, whatever the rolls were before. -/
theorem C94_adc (refr : PyStr → Except PyErr ℝ) (adc1 adc2 : ℝ) (pre rest : List Surf)
    (hpre : pre.length = 9) (I₁ O₁ I₂ O₂ I₃ O₃ I₄ O₄ a b c d a' b' c' d' : Surf)
    (h₁ : BreakIn I₁) (h₂ : BreakIn I₂) (h₃ : BreakIn I₃) (h₄ : BreakIn I₄)
    (k₁ : BreakOut I₁ O₁ O₁.roll) (k₂ : BreakOut I₂ O₂ O₂.roll) (k₃ : BreakOut I₃ O₃ O₃.roll)
    (k₄ : BreakOut I₄ O₄ O₄.roll) (ha : Turned (Z adc1) a a') (hb : Turned (Z adc1) b b')
    (hc : Turned (Z adc2) c c') (hd : Turned (Z adc2) d d')
    (hrest : ∀ S, rest.head? = some S → S.action ≠ 5) :
    ∃ surfs, modifyADC adc1 adc2
        (pre ++ [I₁, O₁, a, b, I₂, O₂, I₃, O₃, c, d, I₄, O₄] ++ rest) = .ok surfs ∧
      ∀ start, final refr surfs start =
        final refr (pre ++ [I₁, a', b', I₂, I₃, c', d', I₄] ++ rest) start := by
  obtain ⟨p1, p2, p3, p4, p5, p6, p7, p8, p9, rfl⟩ : ∃ p1 p2 p3 p4 p5 p6 p7 p8 p9,
      pre = [p1, p2, p3, p4, p5, p6, p7, p8, p9] := by
    match pre, hpre with
    | [p1, p2, p3, p4, p5, p6, p7, p8, p9], _ => exact ⟨_, _, _, _, _, _, _, _, _, rfl⟩
  refine ⟨[p1, p2, p3, p4, p5, p6, p7, p8, p9] ++ [I₁, { O₁ with roll := -adc1 }, a, b, I₂,
    { O₂ with roll := adc1 }, I₃, { O₃ with roll := -adc2 }, c, d, I₄,
    { O₄ with roll := adc2 }] ++ rest, rfl, fun start => ?_⟩
  have e1 := C94_breaks refr adc1 [p1, p2, p3, p4, p5, p6, p7, p8, p9] [a, b] [a', b']
    ([I₃, { O₃ with roll := -adc2 }, c, d, I₄, { O₄ with roll := adc2 }] ++ rest)
    I₁ { O₁ with roll := -adc1 } I₂ { O₂ with roll := adc1 } h₁
    ⟨k₁.act, k₁.place, k₁.tilt, k₁.pitch, rfl⟩ h₂ ⟨k₂.act, k₂.place, k₂.tilt, k₂.pitch, rfl⟩
    (.cons ha (.cons hb .nil))
    (by intro S hS; obtain rfl := Option.some.inj hS; rw [h₃.act]; norm_num) start
  have e2 := C94_breaks refr adc2 [p1, p2, p3, p4, p5, p6, p7, p8, p9, I₁, a', b', I₂] [c, d]
    [c', d'] rest
    I₃ { O₃ with roll := -adc2 } I₄ { O₄ with roll := adc2 } h₃
    ⟨k₃.act, k₃.place, k₃.tilt, k₃.pitch, rfl⟩ h₄ ⟨k₄.act, k₄.place, k₄.tilt, k₄.pitch, rfl⟩
    (.cons hc (.cons hd .nil)) hrest start
  exact e1.trans e2

/-- **C94** (`modifyADC`). It sets the rolls of the surfaces 11, 15, 17 and 21 (counted from 1) to
`-adc1`, `adc1`, `-adc2`, `adc2` and changes nothing else, so that its last call alone counts; a
table of fewer than 21 surfaces is an `IndexError`. -/
theorem C94_modify (adc1 adc2 : ℝ) (surfs : List Surf) :
    (surfs.length < 21 → modifyADC adc1 adc2 surfs = .error .indexError) ∧
    (21 ≤ surfs.length → ∃ out, modifyADC adc1 adc2 surfs = .ok out ∧
      out.length = surfs.length ∧ ∀ (j : ℕ) (S : Surf), surfs[j]? = some S →
        out[j]? = some (if j = 10 then { S with roll := -adc1 }
          else if j = 14 then { S with roll := adc1 }
          else if j = 16 then { S with roll := -adc2 }
          else if j = 20 then { S with roll := adc2 } else S)) ∧
    ∀ (b1 b2 : ℝ) (out : List Surf), modifyADC b1 b2 surfs = .ok out →
      modifyADC adc1 adc2 out = modifyADC adc1 adc2 surfs := by
  have hset : ∀ (l : List Surf) (j : ℕ) (r : ℝ), (hj : 1 ≤ j) → (h : j ≤ l.length) →
      setRoll l j r = .ok (l.set (j - 1) { l[j - 1]'(by omega) with roll := r }) := by
    intro l j r hj h
    unfold setRoll
    rw [List.getElem?_eq_getElem (by omega)]
  have hfail : ∀ (l : List Surf) (j : ℕ) (r : ℝ), l.length < j →
      setRoll l j r = .error .indexError := by
    intro l j r h
    unfold setRoll
    rw [List.getElem?_eq_none (by omega)]
  have hshort : ∀ (l : List Surf) (x y : ℝ), l.length < 21 →
      modifyADC x y l = .error .indexError := by
    intro l x y hl
    unfold modifyADC
    by_cases h11 : l.length < 11
    · rw [hfail l 11 _ h11]; rfl
    rw [hset l 11 _ (by norm_num) (by omega)]
    change (setRoll _ 15 x >>= _) = _
    by_cases h15 : l.length < 15
    · rw [hfail _ 15 _ (by rw [List.length_set]; omega)]; rfl
    rw [hset _ 15 _ (by norm_num) (by rw [List.length_set]; omega)]
    change (setRoll _ 17 (-y) >>= _) = _
    by_cases h17 : l.length < 17
    · rw [hfail _ 17 _ (by rw [List.length_set, List.length_set]; omega)]; rfl
    rw [hset _ 17 _ (by norm_num) (by rw [List.length_set, List.length_set]; omega)]
    change setRoll _ 21 y = _
    rw [hfail _ 21 _ (by rw [List.length_set, List.length_set, List.length_set]; omega)]
  have hlong : ∀ (l : List Surf) (x y : ℝ), 21 ≤ l.length → ∃ out, modifyADC x y l = .ok out ∧
      out.length = l.length ∧ ∀ (j : ℕ) (S : Surf), l[j]? = some S →
        out[j]? = some (if j = 10 then { S with roll := -x }
          else if j = 14 then { S with roll := x }
          else if j = 16 then { S with roll := -y }
          else if j = 20 then { S with roll := y } else S) := by
    intro l x y hl
    unfold modifyADC
    rw [hset l 11 _ (by norm_num) (by omega)]
    change ∃ out, (setRoll _ 15 x >>= _) = _ ∧ _
    rw [hset _ 15 _ (by norm_num) (by rw [List.length_set]; omega)]
    change ∃ out, (setRoll _ 17 (-y) >>= _) = _ ∧ _
    rw [hset _ 17 _ (by norm_num) (by rw [List.length_set, List.length_set]; omega)]
    change ∃ out, setRoll _ 21 y = _ ∧ _
    rw [hset _ 21 _ (by norm_num)
      (by rw [List.length_set, List.length_set, List.length_set]; omega)]
    refine ⟨_, rfl, by simp, ?_⟩
    intro j S hj
    have hjl : j < l.length := by
      by_contra hc
      rw [List.getElem?_eq_none (by omega)] at hj
      cases hj
    have hS : l[j] = S := by
      rw [List.getElem?_eq_getElem hjl] at hj
      exact Option.some.inj hj
    simp only [List.getElem?_set, List.getElem_set, List.length_set]
    by_cases h20 : j = 20
    · subst h20; simp [hS, hjl]
    by_cases h16 : j = 16
    · subst h16; simp [hS, hjl]
    by_cases h14 : j = 14
    · subst h14; simp [hS, hjl]
    by_cases h10 : j = 10
    · subst h10; simp [hS, hjl]
    simp [h20, h16, h14, h10, Ne.symm h20, Ne.symm h16, Ne.symm h14, Ne.symm h10, hj]
  refine ⟨hshort surfs adc1 adc2, hlong surfs adc1 adc2, ?_⟩
  intro b1 b2 out hout
  by_cases hl : surfs.length < 21
  · rw [hshort surfs b1 b2 hl] at hout; cases hout
  obtain ⟨o1, e1, l1, p1⟩ := hlong surfs b1 b2 (by omega)
  rw [e1] at hout
  obtain rfl := Except.ok.inj hout
  obtain ⟨o2, e2, l2, p2⟩ := hlong surfs adc1 adc2 (by omega)
  obtain ⟨o3, e3, l3, p3⟩ := hlong o1 adc1 adc2 (by omega)
  rw [e2, e3]
  congr 1
  apply List.ext_getElem?
  intro j
  by_cases hj : j < surfs.length
  · have hs : surfs[j]? = some surfs[j] := List.getElem?_eq_getElem hj
    rw [p2 j _ hs, p3 j _ (p1 j _ hs)]
    congr 1
    by_cases h20 : j = 20
    · simp [h20]
    by_cases h16 : j = 16
    · simp [h16]
    by_cases h14 : j = 14
    · simp [h14]
    by_cases h10 : j = 10
    · simp [h10]
    simp [h20, h16, h14, h10]
  · rw [List.getElem?_eq_none (by omega), List.getElem?_eq_none (by omega)]

/-! ## The hypotheses can be met -/

/-- The entrance and exit of a break, and an element with a tilted back, as in the table of DESI
(`CBin`, `CBout`, `A1b`). -/
noncomputable def breakAt (z roll : ℝ) (action : ℤ) : Surf :=
  { action := action, odiam := 0, idiam := 0, curve := 0, asph := 0, vertex := ⟨0, 0, z⟩,
    tilt := 0, pitch := 0, roll := roll, hasPoly := false, poly := [], legs := 0,
    legWidth := 0, glass := [] }

example (z : ℝ) : BreakIn (breakAt z 0 4) ∧ BreakOut (breakAt z 0 4) (breakAt z 30 5) 30 :=
  ⟨⟨rfl, ⟨rfl, rfl, rfl, rfl⟩, rfl, Or.inl (by norm_num [breakAt])⟩, ⟨rfl, rfl, rfl, rfl, rfl⟩⟩

example : ∃ S', Turned (Z 30) { breakAt (-8000) 0 0 with pitch := 0.25 } S' := by
  obtain ⟨l, hl⟩ := C94_turn_exists (Z 30) (Z_so 30)
    [{ breakAt (-8000) 0 0 with pitch := 0.25 }]
    (by intro S hS; rw [List.mem_singleton] at hS; subst hS; exact Or.inl (by norm_num [breakAt]))
  cases hl with
  | cons h _ => exact ⟨_, h⟩

end Verif.Props.RayAdc
