import Verif.Props.PerDom

/-! Helper lemmas for the theorems on meshes with periodic sides: the hypotheses of the periodic update hold for the Domain of a valid
mesh; the partner faces. -/
set_option linter.unusedSectionVars false
set_option linter.unusedVariables false
set_option linter.unusedSimpArgs false
namespace Verif.Props.Par
open Verif.Fvm Verif.Spec Verif.Conn Verif.Dom Verif.Geo Verif.Names Verif.MeshFile Verif.Part Verif.Comm Verif.Run Verif.Periodic
variable {K : Type*} [Field K] [LinearOrder K] [IsStrictOrderedRing K]

/-- `where(names == s)`. -/
def whereEq (n : Nat) (nm : Nat → Int) (s : Int) : List Nat := (List.range n).filter (fun f => nm f = s)

theorem mem_whereEq {n : Nat} {nm : Nat → Int} {s : Int} {f : Nat} : f ∈ whereEq n nm s ↔ f < n ∧ nm f = s := by simp [whereEq]

theorem nodup_whereEq (n : Nat) (nm : Nat → Int) (s : Int) : (whereEq n nm s).Nodup := List.nodup_range.filter _

theorem maxOver_ge (n : Nat) (a : Nat → K) {i : Nat} (hi : i < n) : a i ≤ maxOver n a := by
  unfold maxOver
  have key : ∀ (l : List Nat) (b : K), b ≤ l.foldl (fun m i => max m (a i)) b ∧ ∀ i ∈ l, a i ≤ l.foldl (fun m i => max m (a i)) b := by
    intro l
    induction l with
    | nil => intro b; simp
    | cons x l ih =>
      intro b
      obtain ⟨h1, h2⟩ := ih (max b (a x))
      refine ⟨(le_max_left _ _).trans h1, fun i hi => ?_⟩
      rcases List.mem_cons.mp hi with rfl | hi
      · exact (le_max_right _ _).trans h1
      · exact h2 i hi
  exact (key _ _).2 i (List.mem_range.mpr hi)

theorem maxOver_le (n : Nat) (a : Nat → K) (b : K) (hn : 0 < n) (h : ∀ i < n, a i ≤ b) : maxOver n a ≤ b := by
  unfold maxOver
  have key : ∀ (l : List Nat) (c : K), c ≤ b → (∀ i ∈ l, a i ≤ b) → l.foldl (fun m i => max m (a i)) c ≤ b := by
    intro l
    induction l with
    | nil => intro c hc _; exact hc
    | cons x l ih => intro c hc hl; exact ih _ (max_le hc (hl x (by simp))) (fun i hi => hl i (by simp [hi]))
  exact key _ _ (h 0 hn) (fun i hi => h i (List.mem_range.mp hi))

theorem maxOver_eq (n : Nat) (a : Nat → K) (b : K) (h : ∀ i < n, a i ≤ b) {i : Nat} (hi : i < n) (e : a i = b) : maxOver n a = b :=
  le_antisymm (maxOver_le n a b (by omega) h) (e ▸ maxOver_ge n a hi)

theorem periodicDir_symm {r : K → K} {pm : PMesh K} {d : Nat} {δ : K} {A B NA NB : List Nat} (h : PeriodicDir r pm d δ A B NA NB) :
    PeriodicDir r pm d (-δ) B A NB NA := by
  have ts : ∀ {δ : K} {a b : Nat → K}, IsTranslate d δ a b → IsTranslate d (-δ) b a := by
    intro δ a b h e he
    rw [h e he]; split <;> ring
  have hm : ∀ (p : Nat → Nat → K) (A B : List Nat), Matched d δ p A B → Matched d (-δ) p B A := by
    rintro p A B ⟨h1, h2⟩
    exact ⟨fun k hk => by obtain ⟨i, hi, t⟩ := h2 k hk; exact ⟨i, hi, ts t⟩, fun i hi => by obtain ⟨k, hk, t⟩ := h1 i hi; exact ⟨k, hk, ts t⟩⟩
  exact ⟨hm _ _ _ h.faces, hm _ _ _ h.nodes, h.keysB, h.keysA, h.nkeysB, h.nkeysA, h.nodupB, h.nodupA, fun i hi hA => h.disj i hA hi,
    fun i hi hA => h.ndisj i hA hi, fun i hi => h.used i hi.symm, h.exactB, by rw [neg_neg]; exact h.exactA, h.nexactB, by rw [neg_neg]; exact h.nexactA⟩

section
variable {m : Mesh K} {D : Tables K} {side : Nat → Nat → List Nat} {opn : Nat → Nat → Nat} {out : Nat → Nat → Vec K} {F : List (List Nat)}
  {nm : Nat → Int} {g : Nat → Nat} {L : Nat → K} {r : K → K}

theorem SDom.side_lt (h : SDom m D side opn out F nm g) (hv : m.Valid L r) {c j : Nat} (hc : c < m.n) (hj : j < m.dim + 1) {a : Nat}
    (ha : a ∈ side c j ∨ a = opn c j) : a < m.nbnodes := by
  have : a ∈ nodesOf m.nodeid (m.dim + 1) c := (h.sd c hc j hj).subset (by rcases ha with ha | ha <;> simp [ha])
  obtain ⟨k, hk, rfl⟩ := List.mem_map.mp this
  exact hv.nodes c hc k (List.mem_range.mp hk)

theorem centre_translate (m : Mesh K) {d : Nat} {δ : K} {l l' : List Nat} (hlen : l.length = m.dim) (hd : 0 < m.dim)
    (ht : List.Forall₂ (fun a a' => IsTranslate d δ (pos m.node a) (pos m.node a')) l l') : IsTranslate d δ (m.centre l) (m.centre l') := by
  intro e he
  have hsum : ∀ (l l' : List Nat), List.Forall₂ (fun a a' => IsTranslate d δ (pos m.node a) (pos m.node a')) l l' →
      (l'.map (fun a => pos m.node a e)).sum = (l.map (fun a => pos m.node a e)).sum + (l.length : K) * (if e = d then δ else 0) := by
    intro l l' h
    induction h with
    | nil => simp
    | cons h1 _ ih =>
      simp only [List.map_cons, List.sum_cons, List.length_cons]
      rw [ih, h1 e he]; push_cast; ring
  unfold Mesh.centre
  rw [hsum l l' ht, hlen]
  have : (m.dim : K) ≠ 0 := by exact_mod_cast hd.ne'
  field_simp

theorem isTranslate_congr {d : Nat} {δ : K} {a b a' b' : Nat → K} (h : IsTranslate d δ a b) (ha : ∀ k < 3, a' k = a k) (hb : ∀ k < 3, b' k = b k) :
    IsTranslate d δ a' b' := fun e he => by rw [hb e he, ha e he]; exact h e he

theorem isTranslate_neg {d : Nat} {δ : K} {a b : Nat → K} (h : IsTranslate d δ a b) : IsTranslate d (-δ) b a := by
  intro e he; rw [h e he]; split <;> ring

/-- The translate of a face of side `lo`. -/
theorem SDom.partner (h : SDom m D side opn out F nm g) (hv : m.Valid L r) {d lo hi : Nat} {δ : K}
    (hlo : lo ∈ wallSides m.dim ++ perSides m.dim) (hhi : hi ∈ wallSides m.dim ++ perSides m.dim)
    (hup : ∀ c l x, m.Outer c l x → m.On lo l → ∃ c' l' x', m.Outer c' l' x' ∧ m.On hi l' ∧
      List.Forall₂ (fun a a' => IsTranslate d δ (pos m.node a) (pos m.node a')) l l') {f : Nat} (hf : f < D.nbfaces) (hn : D.name f = (lo : Int)) :
    ∃ c < m.n, ∃ j < m.dim + 1, ∃ c' < m.n, ∃ j' < m.dim + 1, ∃ l', D.faceid c j = f ∧ m.Outer c (side c j) (opn c j) ∧ m.On lo (side c j) ∧
      D.cellid f 0 = (c : Int) ∧ m.Outer c' l' (opn c' j') ∧ m.On hi l' ∧ l'.Perm (side c' j') ∧
      List.Forall₂ (fun a a' => IsTranslate d δ (pos m.node a) (pos m.node a')) (side c j) l' ∧
      D.faceid c' j' < D.nbfaces ∧ D.name (D.faceid c' j') = (hi : Int) ∧ D.cellid (D.faceid c' j') 0 = (c' : Int) ∧
      IsTranslate d δ (D.fcenter f) (D.fcenter (D.faceid c' j')) := by
  obtain ⟨c, hc, j, hj, rfl, ho, hon, hu⟩ := h.named hv hlo hf hn
  obtain ⟨c', l', x', ho', hon', ht⟩ := hup _ _ _ ho hon
  obtain ⟨j', hj', hp, rfl, hf', hn', hc0, hu'⟩ := h.of_on ho' hhi hon'
  refine ⟨c, hc, j, hj, c', ho'.1, j', hj', l', rfl, ho, hon, h.cell0_one hc hj hu, ho', hon', hp, ht, hf', hn', hc0, ?_⟩
  have hpos : 0 < m.dim := by rcases h.dim with e | e <;> omega
  refine isTranslate_congr (centre_translate m (h.side_length hc hj) hpos ht) (h.fcenter c hc j hj) ?_
  intro k hk
  rw [h.fcenter c' ho'.1 j' hj' k hk, centre_perm m hp]

theorem SDom.key_eq (h : SDom m D side opn out F nm g) (hv : m.Valid L r) {s : Nat} (hs : s ∈ perSides m.dim) {f : Nat} (hf : f < D.nbfaces)
    (hn : D.name f = (s : Int)) : ∀ k < 3, r (D.fcenter f k) = D.fcenter f k := by
  obtain ⟨c, hc, j, hj, rfl, ho, hon, hu⟩ := h.named hv (by simp [hs]) hf hn
  intro k hk
  rw [h.fcenter c hc j hj k hk]
  exact hv.fexact _ _ _ ho ⟨s, hs, hon⟩ k hk

theorem key_components {r : K → K} {p q : Nat → K} (h : keyAt r p = keyAt r q) : ∀ k < 3, r (p k) = r (q k) := by
  simp only [keyAt, Prod.mk.injEq] at h
  intro k hk
  match k, hk with
  | 0, _ => exact h.1
  | 1, _ => exact h.2.1
  | 2, _ => exact h.2.2

theorem SDom.keysDistinct (h : SDom m D side opn out F nm g) (hv : m.Valid L r) {s : Nat} (hs : s ∈ perSides m.dim) :
    KeysDistinct r (perMesh m.dim D).centerf (whereEq D.nbfaces D.name s) := by
  intro f hf f' hf' e
  obtain ⟨lf, nf⟩ := mem_whereEq.mp hf
  obtain ⟨lf', nf'⟩ := mem_whereEq.mp hf'
  have hk := key_components e
  have hsame : ∀ k < 3, D.fcenter f k = D.fcenter f' k := by
    intro k hk'
    rw [← h.key_eq hv hs lf nf k hk', ← h.key_eq hv hs lf' nf' k hk']
    exact hk k hk'
  obtain ⟨c, hc, j, hj, rfl, ho, hon, hu⟩ := h.named hv (by simp [hs]) lf nf
  obtain ⟨c', hc', j', hj', rfl, ho', hon', hu'⟩ := h.named hv (by simp [hs]) lf' nf'
  refine (h.same hc hc' hj hj').mpr (hv.fapart _ _ _ _ _ _ ho ho' ?_)
  intro k hk'
  rw [← h.fcenter c hc j hj k hk', ← h.fcenter c' hc' j' hj' k hk']
  exact hsame k hk'

theorem SDom.nkeysDistinct (h : SDom m D side opn out F nm g) (hv : m.Valid L r) {s : Nat} (hs : s ∈ perSides m.dim) :
    KeysDistinct r (perMesh m.dim D).vertex (whereEq D.nbnodes D.nodename s) := by
  intro a ha b hb e
  obtain ⟨la, na⟩ := mem_whereEq.mp ha
  obtain ⟨lb, nb⟩ := mem_whereEq.mp hb
  rw [h.nn] at la lb
  rw [h.nodename a la] at na
  rw [h.nodename b lb] at nb
  have na : labelOf m.node a = s := by exact_mod_cast na
  have nb : labelOf m.node b = s := by exact_mod_cast nb
  apply hv.apart a la b lb
  intro k hk
  have e1 := key_components e k hk
  change r (D.vertex a k) = r (D.vertex b k) at e1
  rw [h.vertex a la k hk, h.vertex b lb k hk, hv.exact a la (na ▸ hs) k hk, hv.exact b lb (nb ▸ hs) k hk] at e1
  exact e1

theorem SDom.mem_nodes (h : SDom m D side opn out F nm g) {s a : Nat} : a ∈ whereEq D.nbnodes D.nodename s ↔ a < m.nbnodes ∧ labelOf m.node a = s := by
  rw [mem_whereEq, h.nn]
  constructor
  · rintro ⟨h1, h2⟩
    rw [h.nodename a h1] at h2
    exact ⟨h1, by exact_mod_cast h2⟩
  · rintro ⟨h1, h2⟩
    exact ⟨h1, by rw [h.nodename a h1, h2]⟩

/-- The hypotheses of the periodic update in one direction. -/
theorem SDom.dir (h : SDom m D side opn out F nm g) (hv : m.Valid L r) {d lo hi : Nat} {δ M : K} (hd : d < 3)
    (hlo : lo ∈ perSides m.dim) (hhi : hi ∈ perSides m.dim) (hne : lo ≠ hi) (hf : m.Facing d lo hi δ)
    (hM : (∃ b < m.nbnodes, labelOf m.node b = lo ∨ labelOf m.node b = hi) → M = δ) :
    PeriodicDir r (perMesh m.dim D) d M (whereEq D.nbfaces D.name lo) (whereEq D.nbfaces D.name hi) (whereEq D.nbnodes D.nodename lo)
      (whereEq D.nbnodes D.nodename hi) := by
  have slo : lo ∈ wallSides m.dim ++ perSides m.dim := by simp [hlo]
  have shi : hi ∈ wallSides m.dim ++ perSides m.dim := by simp [hhi]
  by_cases hex : ∃ b < m.nbnodes, labelOf m.node b = lo ∨ labelOf m.node b = hi
  · obtain rfl := hM hex
    have hup := fun f hf' hn => h.partner hv slo shi hf.up (f := f) hf' hn
    have hdn := fun f hf' hn => h.partner hv shi slo hf.down (f := f) hf' hn
    have hex1 : Exact r d M (perMesh m.dim D).centerf (whereEq D.nbfaces D.name lo) := by
      intro f hfm
      obtain ⟨lf, nf⟩ := mem_whereEq.mp hfm
      obtain ⟨c, hc, j, hj, c', hc', j', hj', l', _, _, _, _, _, _, _, _, lf', nf', _, ht⟩ := hup f lf nf
      have e := ht d hd
      rw [if_pos rfl] at e
      show r (D.fcenter f d) + M = r (D.fcenter f d + M)
      rw [← e, h.key_eq hv hhi lf' nf' d hd, h.key_eq hv hlo lf nf d hd, e]
    have hex2 : Exact r d (-M) (perMesh m.dim D).centerf (whereEq D.nbfaces D.name hi) := by
      intro f hfm
      obtain ⟨lf, nf⟩ := mem_whereEq.mp hfm
      obtain ⟨c, hc, j, hj, c', hc', j', hj', l', _, _, _, _, _, _, _, _, lf', nf', _, ht⟩ := hdn f lf nf
      have e := ht d hd
      rw [if_pos rfl] at e
      show r (D.fcenter f d) + -M = r (D.fcenter f d + -M)
      rw [← e, h.key_eq hv hlo lf' nf' d hd, h.key_eq hv hhi lf nf d hd, e]
    have hv' : ∀ a < m.nbnodes, ∀ k < 3, (perMesh m.dim D).vertex a k = pos m.node a k := h.vertex
    have hex3 : ∀ (s t : Nat) (ε : K), s ∈ perSides m.dim → t ∈ perSides m.dim →
        (∀ a < m.nbnodes, labelOf m.node a = s → ∃ a' < m.nbnodes, labelOf m.node a' = t ∧ IsTranslate d ε (pos m.node a) (pos m.node a')) →
        Exact r d ε (perMesh m.dim D).vertex (whereEq D.nbnodes D.nodename s) := by
      intro s t ε hs ht hst a ha
      obtain ⟨la, na⟩ := h.mem_nodes.mp ha
      obtain ⟨a', la', na', htr⟩ := hst a la na
      have e := htr d hd
      rw [if_pos rfl] at e
      rw [hv' a la d hd, ← e, hv.exact a la (na ▸ hs) d hd, hv.exact a' la' (na' ▸ ht) d hd, e]
    refine ⟨⟨?_, ?_⟩, ⟨?_, ?_⟩, h.keysDistinct hv hlo, h.keysDistinct hv hhi, h.nkeysDistinct hv hlo, h.nkeysDistinct hv hhi,
      nodup_whereEq _ _ _, nodup_whereEq _ _ _, ?_, ?_, ?_, hex1, hex2, hex3 lo hi M hlo hhi hf.nup, hex3 hi lo (-M) hhi hlo hf.ndown⟩
    · intro f hfm
      obtain ⟨lf, nf⟩ := mem_whereEq.mp hfm
      obtain ⟨c, hc, j, hj, c', hc', j', hj', l', _, _, _, _, _, _, _, _, lf', nf', _, ht⟩ := hup f lf nf
      exact ⟨_, mem_whereEq.mpr ⟨lf', nf'⟩, ht⟩
    · intro f hfm
      obtain ⟨lf, nf⟩ := mem_whereEq.mp hfm
      obtain ⟨c, hc, j, hj, c', hc', j', hj', l', _, _, _, _, _, _, _, _, lf', nf', _, ht⟩ := hdn f lf nf
      refine ⟨_, mem_whereEq.mpr ⟨lf', nf'⟩, ?_⟩
      have := isTranslate_neg ht
      rw [neg_neg] at this
      exact this
    · intro a ha
      obtain ⟨la, na⟩ := h.mem_nodes.mp ha
      obtain ⟨a', la', na', htr⟩ := hf.nup a la na
      exact ⟨a', h.mem_nodes.mpr ⟨la', na'⟩, isTranslate_congr htr (hv' a la) (hv' a' la')⟩
    · intro a ha
      obtain ⟨la, na⟩ := h.mem_nodes.mp ha
      obtain ⟨a', la', na', htr⟩ := hf.ndown a la na
      refine ⟨a', h.mem_nodes.mpr ⟨la', na'⟩, ?_⟩
      have := isTranslate_neg htr
      rw [neg_neg] at this
      exact isTranslate_congr this (hv' a' la') (hv' a la)
    · intro f h1 h2
      have h1 := (mem_whereEq.mp h1).2
      have h2 := (mem_whereEq.mp h2).2
      rw [h1] at h2
      exact hne (by exact_mod_cast h2)
    · intro f h1 h2
      have h1 := (mem_whereEq.mp h1).2
      have h2 := (mem_whereEq.mp h2).2
      rw [h1] at h2
      exact hne (by exact_mod_cast h2)
    · intro a ha
      have la : a < m.nbnodes := by rcases ha with ha | ha <;> exact (h.mem_nodes.mp ha).1
      obtain ⟨c, hc, hu⟩ := hv.used a la
      have : c ∈ (nodeCells D.cnode D.nbcells (m.dim + 1)).1 a := by
        rw [mem_nodeCells]
        refine ⟨h.nb ▸ hc, ?_⟩
        obtain ⟨i, hi', e⟩ := hu
        have h1 : a ∈ nodesOf m.nodeid (m.dim + 1) c := List.mem_map.mpr ⟨i, List.mem_range.mpr hi', e⟩
        have h2 := (h.cnode c hc).symm.subset h1
        obtain ⟨k, hk, e⟩ := List.mem_map.mp h2
        exact ⟨k, List.mem_range.mp hk, e⟩
      intro e
      change (nodeCells D.cnode D.nbcells (m.dim + 1)).1 a = [] at e
      rw [e] at this
      simp at this
  · push Not at hex
    have e1 : ∀ s, s = lo ∨ s = hi → whereEq D.nbnodes D.nodename (s : Nat) = [] := by
      intro s hs
      rw [List.eq_nil_iff_forall_not_mem]
      intro a ha
      obtain ⟨la, na⟩ := h.mem_nodes.mp ha
      have := hex a la
      rcases hs with rfl | rfl
      · exact this.1 na
      · exact this.2 na
    have e2 : ∀ s, s = lo ∨ s = hi → whereEq D.nbfaces D.name (s : Nat) = [] := by
      intro s hs
      rw [List.eq_nil_iff_forall_not_mem]
      intro f hfm
      obtain ⟨lf, nf⟩ := mem_whereEq.mp hfm
      obtain ⟨c, hc, j, hj, rfl, ho, ⟨⟨a, ha, ea⟩, _⟩, hu⟩ := h.named hv (by rcases hs with rfl | rfl <;> assumption) lf nf
      have := hex a (h.side_lt hv hc hj (Or.inl ha))
      rcases hs with rfl | rfl
      · exact this.1 ea
      · exact this.2 ea
    rw [e1 lo (Or.inl rfl), e1 hi (Or.inr rfl), e2 lo (Or.inl rfl), e2 hi (Or.inr rfl)]
    refine ⟨⟨?_, ?_⟩, ⟨?_, ?_⟩, ?_, ?_, ?_, ?_, List.nodup_nil, List.nodup_nil, ?_, ?_, ?_, ?_, ?_, ?_, ?_⟩ <;>
      (intro i hi'; simp at hi')

end
end Verif.Props.Par
