import Verif.Spec.Interp
import Mathlib.Tactic.Linarith
import Mathlib.Tactic.FieldSimp
import Mathlib.Algebra.Order.BigOperators.Group.List

/-!
# C44, C45: limiter and face-to-cell average
-/
set_option linter.unusedSectionVars false
set_option linter.unusedSimpArgs false
namespace Verif.Interp
open Verif Verif.Geo

variable {K : Type*} [Field K] [LinearOrder K] [IsStrictOrderedRing K]

/-- Running maximum and minimum over pairs. -/
theorem minmax_fold (l : List (K × K)) (b : K × K) :
    let r := l.foldl (fun (b : K × K) p => (max (max b.1 p.1) p.2, min (min b.2 p.1) p.2)) b
    (r.1 = b.1 ∨ r.1 ∈ l.flatMap (fun p => [p.1, p.2])) ∧ (r.2 = b.2 ∨ r.2 ∈ l.flatMap (fun p => [p.1, p.2])) ∧
    b.1 ≤ r.1 ∧ r.2 ≤ b.2 ∧ ∀ v ∈ l.flatMap (fun p => [p.1, p.2]), r.2 ≤ v ∧ v ≤ r.1 := by
  induction l generalizing b with
  | nil => simp
  | cons p l ih =>
    have := ih (max (max b.1 p.1) p.2, min (min b.2 p.1) p.2)
    simp only [List.foldl_cons, List.flatMap_cons, List.mem_append, List.mem_cons, List.not_mem_nil, or_false] at this ⊢
    obtain ⟨h1, h2, h3, h4, h5⟩ := this
    generalize List.foldl (fun (b : K × K) p => (max (max b.1 p.1) p.2, min (min b.2 p.1) p.2)) (max (max b.1 p.1) p.2, min (min b.2 p.1) p.2) l = r at *
    refine ⟨?_, ?_, ?_, ?_, ?_⟩
    · rcases h1 with h | h
      · rw [h]
        rcases max_choice (max b.1 p.1) p.2 with h | h <;> rw [h]
        · rcases max_choice b.1 p.1 with h | h <;> simp [h]
        · simp
      · exact Or.inr (Or.inr h)
    · rcases h2 with h | h
      · rw [h]
        rcases min_choice (min b.2 p.1) p.2 with h | h <;> rw [h]
        · rcases min_choice b.2 p.1 with h | h <;> simp [h]
        · simp
      · exact Or.inr (Or.inr h)
    · exact ((le_max_left _ _).trans (le_max_left _ _)).trans h3
    · exact h4.trans ((min_le_left _ _).trans (min_le_left _ _))
    · rintro v ((rfl | rfl) | h)
      · exact ⟨h4.trans ((min_le_left _ _).trans (min_le_right _ _)), ((le_max_right _ _).trans (le_max_left _ _)).trans h3⟩
      · exact ⟨h4.trans (min_le_right _ _), (le_max_right _ _).trans h3⟩
      · exact h5 v h

/-- The bounds used by the limiter are attained, and bound all values. -/
theorem limiterBounds_spec (dim : Nat) (wc wghost whalo : Nat → K) (cellid0 cellid1 halofid : Nat → Nat) (name : Nat → Int) (faces : List Nat)
    (i : Nat) (hd : dim = 2 ∨ dim = 3) (hname : ∀ f ∈ faces, ValidName dim (name f)) :
    let b := limiterBounds dim wc wghost whalo cellid0 cellid1 halofid name faces i
    let V := limiterValues wc wghost whalo cellid0 cellid1 halofid name faces i
    b.1 ∈ V ∧ b.2 ∈ V ∧ ∀ v ∈ V, b.2 ≤ v ∧ v ≤ b.1 := by
  intro b V
  have hb : b = (faces.map (fun f => (wc (cellid0 f), acrossFace wc wghost whalo cellid1 halofid name f))).foldl
      (fun (b : K × K) p => (max (max b.1 p.1) p.2, min (min b.2 p.1) p.2)) (wc i, wc i) := by
    rw [List.foldl_map]
    simp only [b, limiterBounds]
    have : ∀ (l : List Nat) (s : K × K), (∀ f ∈ l, ValidName dim (name f)) →
        l.foldl (fun (b : K × K) face =>
          (max (max b.1 (wc (cellid0 face))) (if name face = 0 ∨ name face > 10 then wc (cellid1 face)
            else if dim = 2 then
            (if name face = 1 ∨ name face = 2 ∨ name face = 3 ∨ name face = 4 then wghost face else whalo (halofid face))
            else if name face = 10 then whalo (halofid face) else wghost face),
           min (min b.2 (wc (cellid0 face))) (if name face = 0 ∨ name face > 10 then wc (cellid1 face)
            else if dim = 2 then
            (if name face = 1 ∨ name face = 2 ∨ name face = 3 ∨ name face = 4 then wghost face else whalo (halofid face))
            else if name face = 10 then whalo (halofid face) else wghost face))) s
        = l.foldl (fun (b : K × K) f => (max (max b.1 (wc (cellid0 f))) (acrossFace wc wghost whalo cellid1 halofid name f),
            min (min b.2 (wc (cellid0 f))) (acrossFace wc wghost whalo cellid1 halofid name f))) s := by
      intro l
      induction l with
      | nil => simp
      | cons f l ih =>
        intro s h
        rw [List.foldl_cons, List.foldl_cons, ih _ (fun g hg => h g (by simp [hg]))]
        congr 1
        have hv := h f (by simp)
        have : (if name f = 0 ∨ name f > 10 then wc (cellid1 f)
            else if dim = 2 then
            (if name f = 1 ∨ name f = 2 ∨ name f = 3 ∨ name f = 4 then wghost f else whalo (halofid f))
            else if name f = 10 then whalo (halofid f) else wghost f) = acrossFace wc wghost whalo cellid1 halofid name f := by
          unfold acrossFace
          unfold ValidName at hv
          rcases hd with rfl | rfl <;> push_cast at hv <;> split_ifs <;> first | rfl | (exfalso; omega)
        rw [this]
    exact this faces _ hname
  have := minmax_fold (faces.map (fun f => (wc (cellid0 f), acrossFace wc wghost whalo cellid1 halofid name f))) (wc i, wc i)
  rw [← hb] at this
  simp only [List.flatMap_map] at this
  obtain ⟨h1, h2, h3, h4, h5⟩ := this
  refine ⟨?_, ?_, ?_⟩
  · simp only [V, limiterValues, List.mem_cons]; exact h1
  · simp only [V, limiterValues, List.mem_cons]; exact h2
  · intro v hv
    simp only [V, limiterValues, List.mem_cons] at hv
    rcases hv with rfl | hv
    · exact ⟨h4, h3⟩
    · exact h5 v hv

theorem psiFace_range (eps wi wmax wmin d : K) (heps : 0 < eps) (h1 : wmin ≤ wi) (h2 : wi ≤ wmax) :
    0 ≤ psiFace eps wi wmax wmin d ∧ psiFace eps wi wmax wmin d ≤ 1 := by
  unfold psiFace
  split_ifs with h h'
  · exact ⟨zero_le_one, le_refl _⟩
  · exact ⟨le_min zero_le_one (div_nonneg (by linarith) h'.le), min_le_left _ _⟩
  · have : d ≤ 0 := not_lt.1 h'
    exact ⟨le_min zero_le_one (div_nonneg_of_nonpos (by linarith) this), min_le_left _ _⟩

theorem psiFace_bound (eps wi wmax wmin d p : K) (heps : 0 < eps) (h1 : wmin ≤ wi) (h2 : wi ≤ wmax) (hp0 : 0 ≤ p)
    (hp : p ≤ psiFace eps wi wmax wmin d) : wmin - eps ≤ wi + p * d ∧ wi + p * d ≤ wmax + eps := by
  have hp1 : p ≤ 1 := hp.trans (psiFace_range eps wi wmax wmin d heps h1 h2).2
  unfold psiFace at hp
  split_ifs at hp with h h'
  · have := abs_lt.1 h
    constructor
    · nlinarith
    · nlinarith
  · have hq : p ≤ (wmax - wi) / d := hp.trans (min_le_right _ _)
    rw [le_div_iff₀ h'] at hq
    constructor
    · nlinarith [mul_nonneg hp0 h'.le]
    · linarith
  · have hd : d ≤ 0 := not_lt.1 h'
    have hd0 : d < 0 := by
      rcases hd.lt_or_eq with h0 | h0
      · exact h0
      · rw [h0] at h; simp at h; exact absurd heps (not_lt.2 h)
    have hq : p ≤ (wmin - wi) / d := hp.trans (min_le_right _ _)
    rw [le_div_iff_of_neg hd0] at hq
    constructor
    · linarith
    · nlinarith [mul_nonpos_of_nonneg_of_nonpos hp0 hd]

theorem min_fold (l : List K) (b : K) :
    let r := l.foldl min b
    r ≤ b ∧ (∀ v ∈ l, r ≤ v) ∧ (r = b ∨ r ∈ l) := by
  induction l generalizing b with
  | nil => simp
  | cons a l ih =>
    obtain ⟨h1, h2, h3⟩ := ih (min b a)
    simp only [List.foldl_cons]
    generalize List.foldl min (min b a) l = r at *
    refine ⟨h1.trans (min_le_left _ _), ?_, ?_⟩
    · intro v hv
      rcases List.mem_cons.1 hv with rfl | hv
      · exact h1.trans (min_le_right _ _)
      · exact h2 v hv
    · rcases h3 with h | h
      · rcases min_choice b a with h' | h' <;> rw [h, h'] <;> simp
      · right; simp [h]

theorem barth_eq (dim : Nat) (eps : K) (wc wghost whalo : Nat → K) (grad : Vec K) (cellid0 cellid1 halofid : Nat → Nat) (name : Nat → Int)
    (centerc centerf : Nat → Vec K) (faces : List Nat) (i : Nat) (hd : dim = 2 ∨ dim = 3) :
    let b := limiterBounds dim wc wghost whalo cellid0 cellid1 halofid name faces i
    barthLimiter dim eps wc wghost whalo grad cellid0 cellid1 halofid name centerc centerf faces i
      = (faces.map (fun f => psiFace eps (wc i) b.1 b.2 (increment dim grad centerc centerf i f))).foldl min 1 := by
  intro b
  rw [List.foldl_map]
  simp only [barthLimiter, b]
  congr 1
  funext psi f
  congr 2
  rcases hd with rfl | rfl <;> simp [increment, Finset.sum_range_succ]

/-- **C44**: for every cell, field and gradient, the limiter lies in [0,1], and the limited reconstruction at the centre of each face
of the cell lies, up to the code's tolerance, between the smallest and the largest of the values of the cell and of its neighbours
across its faces (`lo`, `hi` are attained).  `dim = 2` with `eps = 1e-8`, `dim = 3` with `eps = 1e-10`. -/
theorem C44_limiter_bounds (dim : Nat) (eps : K) (wc wghost whalo : Nat → K) (grad : Vec K) (cellid0 cellid1 halofid : Nat → Nat)
    (name : Nat → Int) (centerc centerf : Nat → Vec K) (faces : List Nat) (i : Nat) (hd : dim = 2 ∨ dim = 3) (heps : 0 < eps)
    (hname : ∀ f ∈ faces, ValidName dim (name f)) :
    let psi := barthLimiter dim eps wc wghost whalo grad cellid0 cellid1 halofid name centerc centerf faces i
    let V := limiterValues wc wghost whalo cellid0 cellid1 halofid name faces i
    0 ≤ psi ∧ psi ≤ 1 ∧ ∃ lo ∈ V, ∃ hi ∈ V, (∀ v ∈ V, lo ≤ v ∧ v ≤ hi) ∧
      ∀ f ∈ faces, lo - eps ≤ wc i + psi * increment dim grad centerc centerf i f ∧
        wc i + psi * increment dim grad centerc centerf i f ≤ hi + eps := by
  intro psi V
  obtain ⟨hb1, hb2, hb⟩ := limiterBounds_spec dim wc wghost whalo cellid0 cellid1 halofid name faces i hd hname
  have hpsi : psi = _ := barth_eq dim eps wc wghost whalo grad cellid0 cellid1 halofid name centerc centerf faces i hd
  generalize limiterBounds dim wc wghost whalo cellid0 cellid1 halofid name faces i = b at *
  obtain ⟨hw1, hw2⟩ := hb (wc i) (by simp [limiterValues])
  obtain ⟨m1, m2, m3⟩ := min_fold (faces.map (fun f => psiFace eps (wc i) b.1 b.2 (increment dim grad centerc centerf i f))) 1
  rw [← hpsi] at m1 m2 m3
  have h0 : 0 ≤ psi := by
    rcases m3 with h | h
    · rw [h]; exact zero_le_one
    · obtain ⟨f, _, hf⟩ := List.mem_map.1 h
      rw [← hf]; exact (psiFace_range eps _ _ _ _ heps hw1 hw2).1
  refine ⟨h0, m1, b.2, hb2, b.1, hb1, hb, ?_⟩
  intro f hf
  exact psiFace_bound eps (wc i) b.1 b.2 _ psi heps hw1 hw2 h0 (m2 _ (List.mem_map_of_mem hf))

/-- **C44** (no limiting without need): if the unlimited reconstruction stays between the extreme values at every face, in particular
if the gradient is zero, the limiter is 1. -/
theorem C44_limiter_one (dim : Nat) (eps : K) (wc wghost whalo : Nat → K) (grad : Vec K) (cellid0 cellid1 halofid : Nat → Nat)
    (name : Nat → Int) (centerc centerf : Nat → Vec K) (faces : List Nat) (i : Nat) (hd : dim = 2 ∨ dim = 3) (heps : 0 < eps)
    (hname : ∀ f ∈ faces, ValidName dim (name f))
    (hin : ∀ f ∈ faces, ∃ lo ∈ limiterValues wc wghost whalo cellid0 cellid1 halofid name faces i,
      ∃ hi ∈ limiterValues wc wghost whalo cellid0 cellid1 halofid name faces i,
      lo ≤ wc i + increment dim grad centerc centerf i f ∧ wc i + increment dim grad centerc centerf i f ≤ hi) :
    barthLimiter dim eps wc wghost whalo grad cellid0 cellid1 halofid name centerc centerf faces i = 1 := by
  obtain ⟨hb1, hb2, hb⟩ := limiterBounds_spec dim wc wghost whalo cellid0 cellid1 halofid name faces i hd hname
  rw [barth_eq _ _ _ _ _ _ _ _ _ _ _ _ _ _ hd]
  generalize limiterBounds dim wc wghost whalo cellid0 cellid1 halofid name faces i = b at *
  obtain ⟨m1, m2, m3⟩ := min_fold (faces.map (fun f => psiFace eps (wc i) b.1 b.2 (increment dim grad centerc centerf i f))) 1
  rcases m3 with h | h
  · exact h
  · obtain ⟨f, hf, hv⟩ := List.mem_map.1 h
    rw [← hv]
    obtain ⟨lo, hlo, hi, hhi, e1, e2⟩ := hin f hf
    have hlo' := (hb lo hlo).1
    have hhi' := (hb hi hhi).2
    generalize increment dim grad centerc centerf i f = d at *
    unfold psiFace
    split_ifs with h1 h2
    · rfl
    · rw [min_eq_left]; rw [le_div_iff₀ h2]; linarith
    · have hd0 : d < 0 := by
        rcases (not_lt.1 h2).lt_or_eq with h0 | h0
        · exact h0
        · rw [h0] at h1; simp at h1; exact absurd heps (not_lt.2 h1)
      rw [min_eq_left]; rw [le_div_iff_of_neg hd0]; linarith

/-- **C44** (zero gradient). -/
theorem C44_limiter_zero_gradient (dim : Nat) (eps : K) (wc wghost whalo : Nat → K) (grad : Vec K) (cellid0 cellid1 halofid : Nat → Nat)
    (name : Nat → Int) (centerc centerf : Nat → Vec K) (faces : List Nat) (i : Nat) (hd : dim = 2 ∨ dim = 3) (heps : 0 < eps)
    (hg : ∀ k < dim, grad k = 0) :
    barthLimiter dim eps wc wghost whalo grad cellid0 cellid1 halofid name centerc centerf faces i = 1 := by
  rw [barth_eq _ _ _ _ _ _ _ _ _ _ _ _ _ _ hd]
  have hz : ∀ f, increment dim grad centerc centerf i f = 0 := by
    intro f
    apply Finset.sum_eq_zero
    intro k hk
    rw [hg k (Finset.mem_range.1 hk), zero_mul]
  obtain ⟨m1, m2, m3⟩ := min_fold (faces.map (fun f => psiFace eps (wc i) (limiterBounds dim wc wghost whalo cellid0 cellid1 halofid name faces i).1
    (limiterBounds dim wc wghost whalo cellid0 cellid1 halofid name faces i).2 (increment dim grad centerc centerf i f))) 1
  rcases m3 with h | h
  · exact h
  · obtain ⟨f, hf, hv⟩ := List.mem_map.1 h
    rw [← hv, hz f]
    simp [psiFace, heps]

/-- Non-vacuity: a triangle with value 1 at the origin, neighbours 3 (cell), 0 (ghost), 2 (halo), gradient (10, 0): limited. -/
def exPsi : ℚ := barthLimiter 2 (1 / 100000000) (fun c => if c = 0 then 1 else 3) (fun _ => 0) (fun _ => 2)
  (fun k => if k = 0 then 10 else 0) (fun _ => 0) (fun _ => 1) (fun _ => 0) (fun f => if f = 0 then 0 else if f = 1 then 2 else 10)
  (fun _ _ => 0) (fun f k => if k = 0 then (if f = 0 then 1 else if f = 1 then -1 else 0) else 1) [0, 1, 2] 0
example : exPsi = 1 / 10 := by decide +kernel
example : ∀ f ∈ [0, 1, 2], ValidName 2 ((fun f : Nat => if f = 0 then (0 : Int) else if f = 1 then 2 else 10) f) := by
  intro f hf
  simp at hf
  rcases hf with rfl | rfl | rfl <;> simp [ValidName]

/-! ## Face to cell -/

theorem facetocell_eq (u : Nat → K) (faces : List Nat) (dim : Nat) : facetocell u faces dim = (faces.map u).sum / ((dim : K) + 1) := by
  have gen : ∀ (l : List Nat) (s : K), l.foldl (fun s f => s + u f) s = s + (l.map u).sum := by
    intro l
    induction l with
    | nil => simp
    | cons a l ih => intro s; rw [List.foldl_cons, ih]; simp [add_assoc]
  rw [facetocell, gen, zero_add]

/-- **C45**: the cell value is the arithmetic mean of the values on its `dim + 1` faces. -/
theorem C45_mean (u : Nat → K) (faces : List Nat) (dim : Nat) (hlen : faces.length = dim + 1) :
    facetocell u faces dim * faces.length = (faces.map u).sum := by
  rw [facetocell_eq, hlen]
  push_cast
  exact div_mul_cancel₀ _ (by positivity)

/-- **C45** (bounds): it lies between any lower and upper bound of the face values. -/
theorem C45_bounds (u : Nat → K) (faces : List Nat) (dim : Nat) (hlen : faces.length = dim + 1) (lo hi : K)
    (h : ∀ f ∈ faces, lo ≤ u f ∧ u f ≤ hi) : lo ≤ facetocell u faces dim ∧ facetocell u faces dim ≤ hi := by
  have hpos : (0 : K) < (dim : K) + 1 := by positivity
  have key : ∀ l : List Nat, (∀ f ∈ l, lo ≤ u f ∧ u f ≤ hi) → lo * l.length ≤ (l.map u).sum ∧ (l.map u).sum ≤ hi * l.length := by
    intro l
    induction l with
    | nil => simp
    | cons a l ih =>
      intro h
      obtain ⟨h1, h2⟩ := ih (fun f hf => h f (by simp [hf]))
      obtain ⟨h3, h4⟩ := h a (by simp)
      simp only [List.map_cons, List.sum_cons, List.length_cons]
      push_cast
      constructor <;> linarith
  obtain ⟨h1, h2⟩ := key faces h
  rw [hlen] at h1 h2
  push_cast at h1 h2
  rw [facetocell_eq]
  exact ⟨by rw [le_div_iff₀ hpos]; exact h1, by rw [div_le_iff₀ hpos]; exact h2⟩

/-- **C45** (constants). -/
theorem C45_constant (u : Nat → K) (faces : List Nat) (dim : Nat) (hlen : faces.length = dim + 1) (c : K)
    (h : ∀ f ∈ faces, u f = c) : facetocell u faces dim = c := by
  obtain ⟨h1, h2⟩ := C45_bounds u faces dim hlen c c (fun f hf => by rw [h f hf]; exact ⟨le_refl _, le_refl _⟩)
  exact le_antisymm h2 h1

example : facetocell (fun f => if f = 4 then (5 : ℚ) else 2) [4, 7, 9] 2 = 3 := by decide +kernel

end Verif.Interp
