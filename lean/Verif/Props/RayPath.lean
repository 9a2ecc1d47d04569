import Verif.Props.RayConic
import Verif.Props.RayRedirect
import Verif.Props.RayFrames
import Verif.Props.RayAperture

/-!
# C93: the path of one ray through the telescope

In the lab: straight lines between the surfaces, every surface met at the first crossing and
within its aperture, and the laws of reflection and refraction at every surface.
-/

namespace Verif.Props.RayPath

open Verif.Py Verif.RayTrace
open Verif.Props.RayConic (OnSag FirstCrossing General C89_hit C89_lost)
open Verif.Props.RayRedirect (Snell nsq)
open Verif.Props.RayFrames (sub rotE tmul_mul mul_tmul dot_mul dot_tmul C91_round_trip
  C91_round_trip' cross_mul C91_rotation)

/-! ## Specification, in the lab frame -/

/-- The point of the lab is on the conic surface: its coordinates along the axes of the
surface, from the vertex, satisfy the sag equation. -/
def OnSurface (S : Surf) (P : V3) : Prop :=
  OnSag S.curve S.asph (S.E.tmul (sub P S.vertex))

/-- `d` is the distance along the lab ray to the first crossing of the surface. -/
def First (S : Surf) (r : Ray) (d : ℝ) : Prop :=
  0 < d ∧ OnSurface S (along r d) ∧ ∀ e, 0 < e → e < d → ¬ OnSurface S (along r e)

/-- The lab direction of the normal of the surface at a point of the lab. -/
noncomputable def labNormal (S : Surf) (P : V3) : V3 :=
  S.E.mul (getNormal S (S.E.tmul (sub P S.vertex)))

/-- The direction `k'` that leaves a surface with normal `N`, from the direction `k` that comes
in; `none` is the last surface. -/
def Bends (refr : PyStr → Except PyErr ℝ) (S : Surf) (next : Option Surf) (N k k' : V3) : Prop :=
  match next with
  | none => k' = k
  | some T =>
    (S.action = 0 ∧ ∃ n1 n2, refr S.glass = .ok n1 ∧ refr T.glass = .ok n2 ∧
      (dot N k ≠ 0 → Snell (orOne n1) (orOne n2) N k k')) ∨
    (S.action = 1 ∧ cross k' N = cross k N ∧ dot N k' = -dot N k) ∨
    (S.action = 2 ∧ k' = smul (-1) k) ∨
    ((S.action = 3 ∨ S.action = 4) ∧ k' = k)

/-- One surface of the path. -/
structure Step (refr : PyStr → Except PyErr ℝ) (S : Surf) (next : Option Surf) (prev h : Hit) :
    Prop where
  /-- straight line from the previous surface -/
  line : ∃ d, h.lab.pos = along prev.lab d ∧ (S.hasPoly = false → 0 < d) ∧
    (S.hasPoly = false → General S.curve S.asph (labtovx S prev.lab) → First S prev.lab d)
  /-- within the aperture -/
  inside : (0 < S.odiam → RayAperture.rad (S.E.tmul (sub h.lab.pos S.vertex)) ≤ S.odiam / 2) ∧
    S.idiam / 2 ≤ RayAperture.rad (S.E.tmul (sub h.lab.pos S.vertex)) ∧
    ¬ RayAperture.UnderSpider S (S.E.tmul (sub h.lab.pos S.vertex))
  /-- the law of the surface -/
  bend : Bends refr S next (labNormal S h.lab.pos) prev.lab.dir h.lab.dir

/-- A path through the surfaces `l`: at a coordinate break (action 5) the local ray of the
surface before is taken over in the frame of the break. -/
inductive Path (refr : PyStr → Except PyErr ℝ) : List Surf → Hit → List Hit → Prop
  | stop (l : List Surf) (prev : Hit) : Path refr l prev []
  | surface (S : Surf) (l : List Surf) (prev h : Hit) (rows : List Hit) (ha : S.action ≠ 5)
      (hloc : h.loc = labtovx S h.lab) (hs : Step refr S l.head? prev h)
      (ht : Path refr l h rows) : Path refr (S :: l) prev (h :: rows)
  | break (S : Surf) (l : List Surf) (prev h : Hit) (rows : List Hit) (ha : S.action = 5)
      (hloc : h.loc = prev.loc) (hlab : labtovx S h.lab = prev.loc)
      (ht : Path refr l h rows) : Path refr (S :: l) prev (h :: rows)

/-! ## Change of frame -/

theorem labtovx_along (S : Surf) (r : Ray) (d : ℝ) :
    S.E.tmul (sub (along r d) S.vertex) = along (labtovx S r) d := by
  unfold labtovx along sub M3.tmul
  ext <;> dsimp only <;> ring

theorem labtovx_pos (S : Surf) (r : Ray) : (labtovx S r).pos = S.E.tmul (sub r.pos S.vertex) := rfl

theorem first_iff (S : Surf) (r : Ray) (d : ℝ) :
    First S r d ↔ FirstCrossing S.curve S.asph (labtovx S r) d := by
  unfold First FirstCrossing OnSurface
  simp only [labtovx_along]

theorem nsq_mul (S : Surf) (a : V3) : nsq (S.E.mul a) = nsq a := by
  have := dot_mul S.E (rotE S) a a
  rw [RayRedirect.dot_self, RayRedirect.dot_self] at this
  exact this

theorem mul_inj (S : Surf) (a b : V3) (h : S.E.mul a = S.E.mul b) : a = b := by
  rw [← tmul_mul S.E (rotE S) a, h, tmul_mul S.E (rotE S)]

theorem mul_smul (S : Surf) (t : ℝ) (a : V3) : S.E.mul (smul t a) = smul t (S.E.mul a) := by
  unfold M3.mul smul
  ext <;> dsimp only <;> ring

theorem crossE (S : Surf) (a b : V3) : cross (S.E.mul a) (S.E.mul b) = S.E.mul (cross a b) :=
  cross_mul _ (C91_rotation _ _ _) _ _

theorem snell_frame (S : Surf) (n1 n2 : ℝ) (n k k' : V3) (h : Snell n1 n2 n k k') :
    Snell n1 n2 (S.E.mul n) (S.E.mul k) (S.E.mul k') := by
  obtain ⟨h1, h2, h3⟩ := h
  refine ⟨by rw [nsq_mul]; exact h1, ?_, ?_⟩
  · rw [crossE, crossE, ← mul_smul, ← mul_smul, h2]
  · rw [dot_mul _ (rotE S), dot_mul _ (rotE S)]; exact h3

theorem orOne_ne (n : ℝ) : orOne n ≠ 0 := by
  unfold orOne; split_ifs with h
  · exact one_ne_zero
  · exact h

/-- What the intercept does: the ray is moved along its direction. -/
theorem intercept_moves (S : Surf) (r r' : Ray) (h : intercept S r = .ok (.OK, r')) :
    r'.dir = r.dir ∧ ∃ d, r'.pos = along r d ∧ (S.hasPoly = false → 0 < d) ∧
      (S.hasPoly = false → General S.curve S.asph r → FirstCrossing S.curve S.asph r d) := by
  unfold intercept at h
  cases hp : S.hasPoly with
  | false =>
    rw [hp] at h
    simp only [Bool.false_eq_true, if_false] at h
    have h := Except.ok.inj h
    have h' := (RayConic.conic_ok_iff S r r').1 h
    obtain ⟨h0, rfl⟩ := h'
    refine ⟨rfl, _, rfl, fun _ => h0, fun _ hG => (RayConic.pick_iff S r hG _ h0).1 rfl⟩
  | true =>
    rw [hp] at h
    simp only [if_true] at h
    unfold higherIntercept at h
    cases hc : conicIntercept S r with
    | mk c q =>
      rw [hc] at h
      cases c with
      | OK =>
        obtain ⟨_, rfl⟩ := (RayConic.conic_ok_iff S r q).1 hc
        dsimp only at h
        cases hn : newton S { r with pos := along r (RayConic.pick S r) } 8 0 with
        | error e => rw [hn] at h; cases h
        | ok o =>
          cases o with
          | none =>
            rw [hn] at h
            have := (Prod.mk.inj (Except.ok.inj h)).1
            cases this
          | some d =>
            rw [hn] at h
            have := (Prod.mk.inj (Except.ok.inj h)).2
            subst this
            refine ⟨rfl, RayConic.pick S r + d, ?_, by simp, by simp⟩
            unfold along
            ext <;> dsimp only <;> ring
      | _ =>
        have := (Prod.mk.inj (Except.ok.inj h)).1
        cases this

/-- **C93** (one surface). A surface that is passed moves and bends the ray as in the
specification. -/
theorem C93_step (refr : PyStr → Except PyErr ℝ) (S : Surf) (next : Option Surf) (prev h : Hit)
    (ha : S.action ≠ 5) (hp : passOne refr S next prev = .ok (.OK, h)) :
    Step refr S next prev h ∧ h.loc = labtovx S h.lab := by
  unfold passOne at hp
  rw [if_neg ha] at hp
  cases hi : intercept S (labtovx S prev.lab) with
  | error e => rw [hi] at hp; cases hp
  | ok cr =>
    obtain ⟨c, r⟩ := cr
    rw [hi] at hp
    cases c with
    | OK =>
      obtain ⟨hdir, d, hpos, hd0, hG⟩ := intercept_moves S _ r hi
      dsimp only at hp
      cases hv : validate S r.pos with
      | OK =>
        rw [hv] at hp
        dsimp only at hp
        cases hr : redirect refr S next r with
        | error e => rw [hr] at hp; cases hp
        | ok cr' =>
          obtain ⟨c', r'⟩ := cr'
          rw [hr] at hp
          obtain ⟨hc', hh⟩ := Prod.mk.inj (Except.ok.inj hp)
          subst hc'
          have hpos' : r'.pos = r.pos := by
            cases next with
            | none =>
              rw [RayRedirect.C90_last] at hr
              rw [(Prod.mk.inj (Except.ok.inj hr)).2]
            | some T => exact (RayRedirect.C90_switch refr S T r _ r' hr).1
          have hloc : h.loc = labtovx S h.lab := by
            rw [← hh]; exact (C91_round_trip' S r').symm
          have hlr : h.loc = r' := by rw [← hh]
          have hlabpos : h.lab.pos = along prev.lab d := by
            have e1 : vxtolab S (labtovx S ⟨along prev.lab d, prev.lab.dir⟩)
                = ⟨along prev.lab d, prev.lab.dir⟩ := C91_round_trip _ _
            have e2 : (labtovx S ⟨along prev.lab d, prev.lab.dir⟩).pos = r'.pos := by
              rw [hpos', hpos, labtovx_pos]; exact labtovx_along S prev.lab d
            have e3 : ∀ a b : Ray, a.pos = b.pos → (vxtolab S a).pos = (vxtolab S b).pos := by
              intro a b hab; unfold vxtolab; dsimp only; rw [hab]
            rw [← hh]
            have := e3 _ _ e2
            rw [e1] at this
            exact this.symm
          have hlocal : S.E.tmul (sub h.lab.pos S.vertex) = r.pos := by
            rw [hlabpos, labtovx_along, ← hpos]
          refine ⟨⟨⟨d, hlabpos, hd0, fun hq hg => (first_iff _ _ _).2 (hG hq hg)⟩, ?_, ?_⟩, hloc⟩
          · rw [hlocal]
            exact (RayAperture.C92_passes S r.pos).1 hv
          · have hk : prev.lab.dir = S.E.mul r.dir := by
              rw [hdir]; exact (mul_tmul S.E (rotE S) _).symm
            have hk' : h.lab.dir = S.E.mul r'.dir := by rw [← hh]; rfl
            have hN : labNormal S h.lab.pos = S.E.mul (getNormal S r.pos) := by
              unfold labNormal; rw [hlocal]
            rw [hN, hk, hk']
            cases next with
            | none =>
              rw [RayRedirect.C90_last] at hr
              have := (Prod.mk.inj (Except.ok.inj hr)).2
              unfold Bends
              rw [this]
            | some T =>
              have hn1 := (RayRedirect.C90_normal_unit S r.pos).1
              obtain ⟨_, hsw⟩ := RayRedirect.C90_switch refr S T r _ r' hr
              unfold Bends
              dsimp only
              rcases hsw with ⟨h1, _, h2⟩ | ⟨h1, _, h2⟩ | ⟨h1, _, h2⟩ | ⟨h1, n1, n2, g1, g2, h2⟩ |
                ⟨_, h2, _⟩
              · right; left
                obtain ⟨a1, a2⟩ := (RayRedirect.C90_mirror _ _ _ hn1).1 h2.symm
                refine ⟨h1, ?_, ?_⟩
                · rw [crossE, crossE, a1]
                · rw [dot_mul _ (rotE S), dot_mul _ (rotE S), a2]
              · right; right; left
                refine ⟨h1, ?_⟩
                rw [h2, mul_smul]
              · right; right; right
                refine ⟨?_, by rw [h2]⟩
                rcases h1 with h1 | h1 | h1
                · exact Or.inl h1
                · exact Or.inr h1
                · exact absurd h1 ha
              · left
                refine ⟨h1, n1, n2, g1, g2, fun hne => ?_⟩
                rw [dot_mul _ (rotE S)] at hne
                rcases h2 with ⟨_, h2⟩ | ⟨h2, _⟩
                · exact snell_frame S _ _ _ _ _
                    ((RayRedirect.C90_snell _ _ _ _ _ hn1 (orOne_ne n2) hne).1 h2)
                · cases h2
              · cases h2
      | _ =>
        rw [hv] at hp
        have := (Prod.mk.inj (Except.ok.inj hp)).1
        cases this
    | _ =>
      have := (Prod.mk.inj (Except.ok.inj hp)).1
      cases this

/-- **C93** (path). The rows written for a ray are a path through the surfaces. -/
theorem C93_path (refr : PyStr → Except PyErr ℝ) (surfs : List Surf) (start : Hit)
    (howfar : ℕ) (rows : List Hit) (h : runOneRay refr surfs start = .ok (howfar, rows)) :
    howfar = rows.length ∧ howfar ≤ surfs.length ∧ Path refr surfs start rows := by
  unfold runOneRay at h
  cases hr : runFrom refr surfs start with
  | error e => rw [hr] at h; cases h
  | ok t =>
    rw [hr] at h
    obtain ⟨rfl, rfl⟩ := Prod.mk.inj (Except.ok.inj h)
    refine ⟨rfl, ?_⟩
    clear h
    induction surfs generalizing start t with
    | nil =>
      have : [] = t := Except.ok.inj hr
      subst this
      exact ⟨le_refl _, .stop _ _⟩
    | cons S l ih =>
      unfold runFrom at hr
      cases hp : passOne refr S l.head? start with
      | error e => rw [hp] at hr; cases hr
      | ok ch =>
        obtain ⟨c, h⟩ := ch
        rw [hp] at hr
        cases c with
        | OK =>
          dsimp only at hr
          cases ht : runFrom refr l h with
          | error e => rw [ht] at hr; cases hr
          | ok t' =>
            rw [ht] at hr
            have : h :: t' = t := Except.ok.inj hr
            subst this
            obtain ⟨hlen, hpath⟩ := ih h t' ht
            refine ⟨by simpa using hlen, ?_⟩
            by_cases ha : S.action = 5
            · refine .break S l start h t' ha ?_ ?_ hpath
              · unfold passOne at hp
                rw [if_pos ha] at hp
                have := (Prod.mk.inj (Except.ok.inj hp)).2
                rw [← this]
              · unfold passOne at hp
                rw [if_pos ha] at hp
                have := (Prod.mk.inj (Except.ok.inj hp)).2
                rw [← this]
                exact C91_round_trip' S _
            · obtain ⟨a, b⟩ := C93_step refr S l.head? start h ha hp
              exact .surface S l start h t' ha b a hpath
        | _ =>
          have : [] = t := Except.ok.inj hr
          subst this
          exact ⟨Nat.zero_le _, .stop _ _⟩

/-- **C93** (lost). In general position, a ray is lost at a conic surface only because the
surface is not met ahead, or because the aperture stops it there, or by total reflection, or
because the kind of surface is unknown. -/
theorem C93_lost (refr : PyStr → Except PyErr ℝ) (S : Surf) (next : Option Surf) (prev h : Hit)
    (c : Code) (hc : c ≠ .OK) (hq : S.hasPoly = false)
    (hG : General S.curve S.asph (labtovx S prev.lab))
    (hp : passOne refr S next prev = .ok (c, h)) :
    (∀ d, 0 < d → ¬ OnSurface S (along prev.lab d)) ∨
    ∃ d, First S prev.lab d ∧
      (¬ ((0 < S.odiam → RayAperture.rad (S.E.tmul (sub (along prev.lab d) S.vertex)) ≤ S.odiam / 2) ∧
          S.idiam / 2 ≤ RayAperture.rad (S.E.tmul (sub (along prev.lab d) S.vertex)) ∧
          ¬ RayAperture.UnderSpider S (S.E.tmul (sub (along prev.lab d) S.vertex))) ∨
       (S.action = 0 ∧ ∃ T n1 n2, next = some T ∧ refr S.glass = .ok n1 ∧ refr T.glass = .ok n2 ∧
          orOne n2 ^ 2 ≤ orOne n1 ^ 2 *
            nsq (cross prev.lab.dir (labNormal S (along prev.lab d)))) ∨
       S.action < 0 ∨ 5 < S.action) := by
  unfold passOne at hp
  split_ifs at hp with ha
  · exact absurd (Prod.mk.inj (Except.ok.inj hp)).1.symm hc
  have hint : intercept S (labtovx S prev.lab) = .ok (conicIntercept S (labtovx S prev.lab)) := by
    unfold intercept; rw [hq]; rfl
  by_cases hok : (conicIntercept S (labtovx S prev.lab)).1 = .OK
  · right
    have hpair : conicIntercept S (labtovx S prev.lab)
        = (.OK, (conicIntercept S (labtovx S prev.lab)).2) := Prod.ext hok rfl
    obtain ⟨d, hd, hr'⟩ := (C89_hit S _ _ hG).1 hpair
    rw [hr'] at hpair
    rw [hint, hpair] at hp
    dsimp only at hp
    refine ⟨d, (first_iff _ _ _).2 hd, ?_⟩
    rw [labtovx_along]
    cases hv : validate S (along (labtovx S prev.lab) d) with
    | OK =>
      right
      rw [hv] at hp
      dsimp only at hp
      cases hrd : redirect refr S next ⟨along (labtovx S prev.lab) d, (labtovx S prev.lab).dir⟩ with
      | error e => rw [hrd] at hp; cases hp
      | ok cr =>
        obtain ⟨c', r'⟩ := cr
        rw [hrd] at hp
        have hcc := (Prod.mk.inj (Except.ok.inj hp)).1
        subst hcc
        cases next with
        | none =>
          rw [RayRedirect.C90_last] at hrd
          exact absurd (Prod.mk.inj (Except.ok.inj hrd)).1.symm hc
        | some T =>
          obtain ⟨_, hsw⟩ := RayRedirect.C90_switch refr S T _ _ r' hrd
          rcases hsw with ⟨_, h2, _⟩ | ⟨_, h2, _⟩ | ⟨_, h2, _⟩ | ⟨h1, n1, n2, g1, g2, h2⟩ | ⟨h1, _, _⟩
          · exact absurd h2 hc
          · exact absurd h2 hc
          · exact absurd h2 hc
          · rcases h2 with ⟨h2, _⟩ | ⟨_, _, h2⟩
            · exact absurd h2 hc
            · left
              refine ⟨h1, T, n1, n2, rfl, g1, g2, ?_⟩
              have := (RayRedirect.C90_tir (orOne n1) (orOne n2) _ _
                (RayRedirect.C90_normal_unit S _).1 (orOne_ne n2)).1 h2
              unfold labNormal
              rw [labtovx_along]
              have hk : prev.lab.dir = S.E.mul (labtovx S prev.lab).dir :=
                (mul_tmul S.E (rotE S) _).symm
              rw [hk, crossE, nsq_mul]
              exact this
          · exact Or.inr h1
    | _ =>
      left
      intro hcon
      have := (RayAperture.C92_passes S _).2 hcon
      rw [hv] at this
      cases this
  · left
    intro d hd
    unfold OnSurface
    rw [labtovx_along]
    exact (C89_lost S _ hG).1 hok d hd

/-! ## Unit directions -/

/-- No lens surface of the path is met exactly along its tangent plane. -/
def NoGraze (refr : PyStr → Except PyErr ℝ) : List Surf → Hit → Prop
  | [], _ => True
  | S :: l, prev =>
    (S.action = 0 → ∀ r, intercept S (labtovx S prev.lab) = .ok (.OK, r) →
      dot (getNormal S r.pos) r.dir ≠ 0) ∧
    ∀ h, passOne refr S l.head? prev = .ok (.OK, h) → NoGraze refr l h

/-- One surface keeps the direction a unit vector. -/
theorem unit_step (refr : PyStr → Except PyErr ℝ) (S : Surf) (next : Option Surf) (prev h : Hit)
    (hu : nsq prev.lab.dir = 1) (hl : nsq prev.loc.dir = 1)
    (hg : S.action = 0 → ∀ r, intercept S (labtovx S prev.lab) = .ok (.OK, r) →
      dot (getNormal S r.pos) r.dir ≠ 0)
    (hp : passOne refr S next prev = .ok (.OK, h)) :
    nsq h.lab.dir = 1 ∧ nsq h.loc.dir = 1 := by
  have hframe : ∀ r : Ray, nsq (vxtolab S r).dir = nsq r.dir := fun r => nsq_mul S r.dir
  unfold passOne at hp
  split_ifs at hp with ha
  · have := (Prod.mk.inj (Except.ok.inj hp)).2
    rw [← this]
    exact ⟨by rw [hframe]; exact hl, hl⟩
  · cases hi : intercept S (labtovx S prev.lab) with
    | error e => rw [hi] at hp; cases hp
    | ok cr =>
      obtain ⟨c, r⟩ := cr
      rw [hi] at hp
      cases c with
      | OK =>
        obtain ⟨hdir, _⟩ := intercept_moves S _ r hi
        have hur : nsq r.dir = 1 := by
          rw [hdir]
          have := nsq_mul S (labtovx S prev.lab).dir
          rw [← this]
          have e : S.E.mul (labtovx S prev.lab).dir = prev.lab.dir := mul_tmul S.E (rotE S) _
          rw [e]; exact hu
        dsimp only at hp
        cases hv : validate S r.pos with
        | OK =>
          rw [hv] at hp
          dsimp only at hp
          cases hr : redirect refr S next r with
          | error e => rw [hr] at hp; cases hp
          | ok cr' =>
            obtain ⟨c', r'⟩ := cr'
            rw [hr] at hp
            obtain ⟨hc', hh⟩ := Prod.mk.inj (Except.ok.inj hp)
            subst hc'
            suffices hr' : nsq r'.dir = 1 by
              rw [← hh]
              exact ⟨by rw [hframe]; exact hr', hr'⟩
            cases next with
            | none =>
              rw [RayRedirect.C90_last] at hr
              rw [← (Prod.mk.inj (Except.ok.inj hr)).2]
              exact hur
            | some T =>
              have hn1 := (RayRedirect.C90_normal_unit S r.pos).1
              obtain ⟨_, hsw⟩ := RayRedirect.C90_switch refr S T r _ r' hr
              rcases hsw with ⟨h1, _, h2⟩ | ⟨h1, _, h2⟩ | ⟨h1, _, h2⟩ | ⟨h1, n1, n2, g1, g2, h2⟩ |
                ⟨_, h2, _⟩
              · rw [h2, RayRedirect.C90_mirror_length _ _ hn1]; exact hur
              · rw [h2, RayRedirect.nsq_smul, hur]; norm_num
              · rw [h2]; exact hur
              · rcases h2 with ⟨_, h2⟩ | ⟨h2, _⟩
                · exact ((RayRedirect.C90_snell _ _ _ _ _ hn1 (orOne_ne n2) (hg h1 r hi)).1 h2).1
                · cases h2
              · cases h2
        | _ =>
          rw [hv] at hp
          have := (Prod.mk.inj (Except.ok.inj hp)).1
          cases this
      | _ =>
        have := (Prod.mk.inj (Except.ok.inj hp)).1
        cases this

/-- **C93** (unit). A ray that starts with a unit direction keeps a unit direction at every
surface, in the lab and in the frames, if it meets no lens surface along its tangent plane. -/
theorem C93_unit (refr : PyStr → Except PyErr ℝ) (surfs : List Surf) (start : Hit)
    (rows : List Hit) (hu : nsq start.lab.dir = 1) (hl : nsq start.loc.dir = 1)
    (hg : NoGraze refr surfs start) (h : runFrom refr surfs start = .ok rows) :
    ∀ q ∈ rows, nsq q.lab.dir = 1 ∧ nsq q.loc.dir = 1 := by
  induction surfs generalizing start rows with
  | nil =>
    have : [] = rows := Except.ok.inj h
    subst this
    simp
  | cons S l ih =>
    unfold runFrom at h
    cases hp : passOne refr S l.head? start with
    | error e => rw [hp] at h; cases h
    | ok ch =>
      obtain ⟨c, q⟩ := ch
      rw [hp] at h
      cases c with
      | OK =>
        dsimp only at h
        cases ht : runFrom refr l q with
        | error e => rw [ht] at h; cases h
        | ok t' =>
          rw [ht] at h
          have : q :: t' = rows := Except.ok.inj h
          subst this
          have hs := unit_step refr S l.head? start q hu hl hg.1 hp
          intro p hpm
          rcases List.mem_cons.1 hpm with rfl | hpm
          · exact hs
          · exact ih q t' hs.1 hs.2 (hg.2 q hp) ht p hpm
      | _ =>
        have : [] = rows := Except.ok.inj h
        subst this
        simp

/-! ## A case: one plane of glass -/

/-- A plane surface at height `z`. -/
def planeAt (a : Int) (z : ℝ) (g : PyStr) : Surf :=
  { RayConic.plain 0 0 with action := a, vertex := ⟨0, 0, z⟩, glass := g }

theorem euler_zero : euler 0 0 0 = ⟨1, 0, 0, 0, 1, 0, 0, 0, 1⟩ := by
  have h0 : radians 0 = 0 := by unfold radians; ring
  unfold euler
  rw [h0, Real.cos_zero, Real.sin_zero]
  norm_num

/-- Hypotheses met: a ray down the axis goes through an iris, a plane of glass and another
iris, with unit directions and no grazing. -/
example : nsq (⟨0, 0, -1⟩ : V3) = 1 ∧
    NoGraze (fun _ => .ok 1.5) [planeAt 3 0 [], planeAt 0 (-5) [], planeAt 3 (-9) ['g']]
      ⟨⟨⟨1, 2, 7⟩, ⟨0, 0, -1⟩⟩, ⟨⟨0, 0, 0⟩, ⟨0, 0, -1⟩⟩⟩ := by
  have hnorm : ∀ a z g p, getNormal (planeAt a z g) p = ⟨0, 0, 1⟩ := by
    intro a z g p
    unfold getNormal gradTotal gradConic planeAt RayConic.plain RayTrace.normalize
    norm_num
  have hE : ∀ a z g, (planeAt a z g).E = ⟨1, 0, 0, 0, 1, 0, 0, 0, 1⟩ := fun a z g => euler_zero
  have hdir : ∀ a z g (r : Ray), r.dir = ⟨0, 0, -1⟩ →
      (labtovx (planeAt a z g) r).dir = ⟨0, 0, -1⟩ := by
    intro a z g r h
    unfold labtovx M3.tmul
    rw [hE, h]
    norm_num
  refine ⟨by unfold nsq; norm_num, fun h => ?_, fun h hp => ⟨?_, fun h' _ => ⟨fun h => ?_, ?_⟩⟩⟩
  · exact absurd h (by unfold planeAt; norm_num)
  · intro _ r hr
    have ha : (planeAt 3 0 []).action ≠ 5 := by unfold planeAt; norm_num
    obtain ⟨hs, _⟩ := C93_step _ _ _ _ _ ha hp
    have hb := hs.bend
    unfold Bends at hb
    have hlab : h.lab.dir = ⟨0, 0, -1⟩ := by
      rcases hb with ⟨h, _⟩ | ⟨h, _⟩ | ⟨h, _⟩ | ⟨_, h⟩
      · exact absurd h (by unfold planeAt; norm_num)
      · exact absurd h (by unfold planeAt; norm_num)
      · exact absurd h (by unfold planeAt; norm_num)
      · exact h
    rw [hnorm, (intercept_moves _ _ _ hr).1, hdir _ _ _ _ hlab]
    unfold dot; norm_num
  · exact absurd h (by unfold planeAt; norm_num)
  · intro _ _; trivial

end Verif.Props.RayPath
