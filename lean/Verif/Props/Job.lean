import Verif.Model.Job
import Verif.Props.Proc
import Verif.Props.ParVar

/-!
# The program of a process, run together with the others, computes the state of the lock-step model

`job_lock`: the collectives of `Job.job` match on all processes and the results are the states of `Run.tloop`.
-/
set_option linter.unusedSectionVars false
set_option linter.unusedVariables false
set_option linter.unusedSimpArgs false
namespace Verif.Props.Par
open Verif Verif.Dom Verif.Fvm Verif.MeshFile Verif.Comm Verif.HaloGhost Verif.Proc Verif.Run Verif.Job
variable {K : Type} [Field K] [LinearOrder K] [IsStrictOrderedRing K]

/-- Run together, the processes end with the results `a`. -/
def Locks {M α : Type} [Inhabited M] (SIZE : Nat) (P : Nat → Prog M α) (a : Nat → α) : Prop := ∃ n, Lock SIZE P n a

section
variable {M α β : Type} [Inhabited M] {SIZE : Nat}

theorem Locks.bind {P : Nat → Prog M α} {a : Nat → α} {F : Nat → α → Prog M β} {b : Nat → β} (h : Locks SIZE P a)
    (h' : Locks SIZE (fun p => F p (a p)) b) : Locks SIZE (fun p => P p >>= F p) b := by
  obtain ⟨n, h⟩ := h
  obtain ⟨m, h'⟩ := h'
  exact ⟨n + m, h.bind h'⟩

theorem Locks.pure (a : Nat → α) : Locks (M := M) SIZE (fun p => (Pure.pure (a p) : Prog M α)) a := ⟨0, .ret _ _ (fun _ _ => rfl)⟩

theorem Locks.congr {P P' : Nat → Prog M α} {a a' : Nat → α} (h : Locks SIZE P a) (hP : ∀ p < SIZE, P p = P' p) (ha : ∀ p < SIZE, a p = a' p) :
    Locks SIZE P' a' := by
  obtain ⟨n, h⟩ := h
  exact ⟨n, h.congr hP ha⟩

theorem Locks.lift {o : Nat → Option α} {a : Nat → α} (h : ∀ p < SIZE, o p = some (a p)) : Locks (M := M) SIZE (fun p => Proc.lift (o p)) a :=
  ⟨0, .ret _ _ (fun p hp => by rw [h p hp]; rfl)⟩

end

theorem Locks.collective {SIZE comm : Nat} (nb : Nat → List Nat) (out : Nat → List (Wire K)) (hs : ∀ p < SIZE, ∀ q ∈ nb p, q < SIZE ∧ p ∈ nb q) :
    Locks SIZE (fun p => Job.collective comm (nb p) (out p)) (fun p => (nb p).map (fun q => msgFor (nb q, out q) p)) :=
  ⟨1, .coll _ _ 0 comm nb out (fun _ => .ret) (fun _ _ => rfl) hs (.ret _ _ (fun _ _ => rfl))⟩

theorem idxOf_range {n p : Nat} (h : p < n) : (List.range n).idxOf p = p := by
  have := List.Nodup.idxOf_getElem (List.nodup_range (n := n)) p (by simpa using h)
  rwa [List.getElem_range] at this

theorem msgFor_map {nb : List Nat} {f : Nat → Wire K} {p : Nat} (h : p ∈ nb) :
    msgFor (nb, (List.range nb.length).map f) p = f (nb.idxOf p) := by
  unfold msgFor
  have hi : nb.idxOf p < nb.length := List.idxOf_lt_length_of_mem h
  simp [List.getD_eq_getElem?_getD, hi]

theorem Locks.allToAll {SIZE comm : Nat} (f : Nat → Nat → Wire K) :
    Locks SIZE (fun p => Job.allToAll comm SIZE (f p)) (fun p => (List.range SIZE).map (fun q => f q p)) := by
  refine (Locks.collective (fun _ => List.range SIZE) (fun p => (List.range SIZE).map (f p)) (fun p hp q hq => ⟨by simpa using hq, by simpa using hp⟩)).congr
    (fun _ _ => rfl) (fun p hp => List.map_congr_left (fun q _ => ?_))
  have := msgFor_map (nb := List.range SIZE) (f := f q) (p := p) (by simpa using hp)
  rw [List.length_range, idxOf_range hp] at this
  exact this

theorem Locks.barrier {SIZE comm : Nat} : Locks SIZE (fun _ => Job.barrier (K := K) comm SIZE) (fun _ => ()) :=
  Locks.bind (Locks.allToAll (fun _ _ => .unit)) (Locks.pure _)

theorem mapM_map_some {α β γ : Type} (l : List α) (f : α → β) (g : β → Option γ) (h : α → γ) (hg : ∀ x ∈ l, g (f x) = some (h x)) :
    (l.map f).mapM g = some (l.map h) := by
  induction l with
  | nil => rfl
  | cons x l ih =>
    simp only [List.map_cons, List.mapM_cons, hg x (by simp), ih (fun y hy => hg y (by simp [hy]))]
    rfl

/-- Counts exchanged by all processes. -/
theorem Locks.counts {SIZE comm : Nat} (f : Nat → Nat → Nat) :
    Locks SIZE (fun p => (Job.allToAll (K := K) comm SIZE (fun q => .count (f p q))) >>= fun r => Proc.lift (r.mapM Wire.toCount))
      (fun p => (List.range SIZE).map (fun q => f q p)) :=
  Locks.bind (Locks.allToAll (fun p q => .count (f p q))) (Locks.lift (fun p _ => mapM_map_some _ _ _ _ (fun _ _ => rfl)))

/-- What `prepare_comm` leaves on process `p`. -/
def commFor (SIZE : Nat) (data : Nat → RankData K) (p : Nat) : CommTabs :=
  if SIZE > 1 then ⟨(data p).neigh.getD 0 [], positive SIZE (scountArr (data p).neigh), positive SIZE (rcountArr (fun q => (data q).neigh) p),
    ((indsend (data p).globtoloc (data p).halosint).getD [])⟩
  else ⟨[0], [0], [0], [0]⟩

/-- What the halo exchanges need: symmetric neighbour lists with one count for each neighbour, and the cells to be sent. -/
structure CommOk (SIZE : Nat) (data : Nat → RankData K) : Prop where
  sym : SIZE > 1 → ∀ p < SIZE, ∀ q ∈ (data p).neigh.getD 0 [], q < SIZE ∧ p ∈ (data q).neigh.getD 0 []
  len : SIZE > 1 → ∀ p < SIZE, (positive SIZE (scountArr (data p).neigh)).length = ((data p).neigh.getD 0 []).length
  ind : SIZE > 1 → ∀ p < SIZE, ∃ l, indsend (data p).globtoloc (data p).halosint = some l

theorem range_getD_map {n : Nat} {β : Type} (f : Nat → β) (z : β) {q : Nat} (h : q < n) : ((List.range n).map f).getD q z = f q := by
  simp [List.getD_eq_getElem?_getD, h]

theorem positive_congr {SIZE : Nat} {f g : Nat → Nat} (h : ∀ q < SIZE, f q = g q) : positive SIZE f = positive SIZE g := by
  unfold positive
  rw [List.map_congr_left (fun q hq => h q (by simpa using hq))]

theorem prepare_lock {SIZE : Nat} {data : Nat → RankData K} (h : CommOk SIZE data) :
    Locks SIZE (fun p => prepareComm SIZE (data p)) (commFor SIZE data) := by
  unfold prepareComm
  by_cases hS : SIZE > 1
  · simp only [if_pos hS]
    refine Locks.bind (Locks.allToAll (fun p q => .count (scountArr (data p).neigh q))) ?_
    refine Locks.bind (Locks.lift (a := fun p => (List.range SIZE).map (fun q => scountArr (data q).neigh p))
      (fun p _ => mapM_map_some _ _ _ _ (fun _ _ => rfl))) ?_
    refine Locks.bind (Locks.lift (a := fun p => (indsend (data p).globtoloc (data p).halosint).getD [])
      (fun p hp => by obtain ⟨l, e⟩ := h.ind hS p hp; rw [e]; rfl)) ?_
    refine Locks.bind Locks.barrier ?_
    refine (Locks.pure _).congr (fun _ _ => rfl) (fun p hp => ?_)
    unfold commFor
    rw [if_pos hS]
    congr 1
    exact positive_congr (fun q hq => range_getD_map _ _ hq)
  · simp only [if_neg hS]
    refine Locks.bind Locks.barrier ?_
    refine (Locks.pure _).congr (fun _ _ => rfl) (fun p hp => ?_)
    unfold commFor
    rw [if_neg hS]

theorem mapM_forall₂ {α β : Type} {f : α → Option β} {l : List α} {r : List β} (h : l.mapM f = some r) :
    List.Forall₂ (fun a b => f a = some b) l r := by
  induction l generalizing r with
  | nil => simp at h; subst h; exact .nil
  | cons x l ih =>
    rw [List.mapM_cons] at h
    simp only [bind, Option.bind_eq_some_iff, pure, Option.some.injEq] at h
    obtain ⟨b, hb, r', hr, e⟩ := h
    rw [← e]
    exact .cons hb (ih hr)

theorem mapM_range_ok {β : Type} {n : Nat} {f : Nat → Option β} {l : List β} (h : (List.range n).mapM f = some l) :
    ∀ j < n, ∃ b, f j = some b ∧ l.getD j b = b ∧ l.length = n := by
  have h := mapM_forall₂ h
  intro j hj
  have hl := h.length_eq
  rw [List.length_range] at hl
  have := List.forall₂_iff_get.mp h
  have h2 := this.2 j (by simpa using hj) (by omega)
  simp at h2
  exact ⟨_, h2, by rw [List.getD_eq_getElem _ _ (by omega)], hl.symm⟩

/-- One halo exchange. -/
theorem exchange_lock {SIZE : Nat} {data : Nat → RankData K} (h : CommOk SIZE data) (hS0 : 0 < SIZE) (a : Nat → Nat → K) (H : Nat → List K)
    (he : ∀ p < SIZE, Run.exchange SIZE data a p = some (H p)) :
    Locks SIZE (fun p => exchangeP (commFor SIZE data p) (a p)) H := by
  by_cases hS : SIZE > 1
  · have hne : SIZE ≠ 1 := by omega
    obtain ⟨nbr, hnbr⟩ : ∃ nbr, nbr = fun p => (data p).neigh.getD 0 [] := ⟨_, rfl⟩
    obtain ⟨sc, hsc⟩ : ∃ sc, sc = fun p => positive SIZE (scountArr (data p).neigh) := ⟨_, rfl⟩
    obtain ⟨rc, hrc⟩ : ∃ rc, rc = fun p => positive SIZE (rcountArr (fun q => (data q).neigh) p) := ⟨_, rfl⟩
    obtain ⟨ind, hind⟩ : ∃ ind, ind = fun p => (indsend (data p).globtoloc (data p).halosint).getD [] := ⟨_, rfl⟩
    have sym : ∀ p < SIZE, ∀ q ∈ nbr p, q < SIZE ∧ p ∈ nbr q := by rw [hnbr]; exact h.sym hS
    have hlen : ∀ p < SIZE, (sc p).length = (nbr p).length := by rw [hnbr, hsc]; exact h.len hS
    have hc : commFor SIZE data = fun p => ⟨nbr p, sc p, rc p, ind p⟩ := by
      funext p; unfold commFor; rw [if_pos hS, hnbr, hsc, hrc, hind]
    obtain ⟨blk, hblk⟩ : ∃ blk : Nat → Nat → List K, blk = fun q p => block (sc q) (halosend (a q) (ind q)) ((nbr q).idxOf p) := ⟨_, rfl⟩
    have key : ∀ p < SIZE, H p = ((nbr p).map (fun q => blk q p)).flatten ∧
        (nbr p).map (fun q => (blk q p).length) = (List.range (nbr p).length).map (fun j => (rc p).getD j 0) := by
      intro p hp
      have h1 := he p hp
      unfold Run.exchange at h1
      rw [if_neg hne] at h1
      unfold updateHalo at h1
      have hsend : (List.range SIZE).mapM (fun q => (indsend (data q).globtoloc (data q).halosint).map (halosend (a q))) =
          some ((List.range SIZE).map (fun q => halosend (a q) (ind q))) := by
        have := mapM_map_some (List.range SIZE) id (fun q => (indsend (data q).globtoloc (data q).halosint).map (halosend (a q)))
          (fun q => halosend (a q) (ind q)) (fun q hq => by
            obtain ⟨l, e⟩ := h.ind hS q (by simpa using hq)
            simp [e, hind])
        simpa using this
      rw [hsend] at h1
      simp only [bind, Option.bind, neighborAlltoallv, Option.map_eq_some_iff] at h1
      obtain ⟨l, hl, e⟩ := h1
      have hbj : ∀ j < (nbr p).length, l.getD j [] = blk ((nbr p).getD j 0) p ∧ (blk ((nbr p).getD j 0) p).length = (rc p).getD j 0 ∧ l.length = (nbr p).length := by
        intro j hj
        obtain ⟨b, hb, hlb, hll⟩ := mapM_range_ok hl j (by rw [hnbr] at hj; exact hj)
        have hq : (nbr p).getD j 0 ∈ nbr p := by rw [List.getD_eq_getElem _ _ hj]; exact List.getElem_mem _
        have hqS := (sym p hp _ hq).1
        have hll' : l.length = (nbr p).length := by rw [hnbr]; exact hll
        rw [show ((data p).neigh.getD 0 []) = nbr p by rw [hnbr]] at hb
        rw [range_getD_map _ _ hqS] at hb
        split at hb
        · rename_i hcond
          have hbe := Option.some.inj hb
          have e1 : b = blk ((nbr p).getD j 0) p := by rw [← hbe, hblk, hsc, hnbr]
          refine ⟨?_, ?_, hll'⟩
          · rw [List.getD_eq_getElem _ _ (by omega)] at hlb ⊢
            rw [hlb, e1]
          · rw [← e1, ← hbe, hrc]; exact hcond.1
        · exact absurd hb (by simp)
      have hll : l.length = (nbr p).length := by
        have := (mapM_forall₂ hl).length_eq
        rw [List.length_range] at this
        rw [hnbr]; exact this.symm
      have hle : l = (nbr p).map (fun q => blk q p) := by
        apply List.ext_getElem
        · rw [hll, List.length_map]
        · intro j h1 h2
          have := (hbj j (by omega)).1
          rw [List.getD_eq_getElem _ _ h1, List.getD_eq_getElem _ _ (by omega)] at this
          rw [this, List.getElem_map]
      refine ⟨by rw [← e, hle], ?_⟩
      apply List.ext_getElem
      · simp
      · intro j h1 h2
        have hj : j < (nbr p).length := by simpa using h1
        have := (hbj j hj).2.1
        rw [List.getD_eq_getElem _ _ hj] at this
        simpa using this
    rw [hc]
    unfold exchangeP
    have : ∀ p < SIZE, (if (sc p).length = (nbr p).length then (do
        let r ← Job.collective 1 (nbr p) ((List.range (nbr p).length).map (fun i => Wire.vals (block (sc p) (halosend (a p) (ind p)) i)))
        let b ← Proc.lift (r.mapM Wire.toVals)
        if b.map List.length = (List.range (nbr p).length).map (fun j => (rc p).getD j 0) then return b.flatten else Prog.fail)
      else Prog.fail) = (do
        let r ← Job.collective 1 (nbr p) ((List.range (nbr p).length).map (fun i => Wire.vals (block (sc p) (halosend (a p) (ind p)) i)))
        let b ← Proc.lift (r.mapM Wire.toVals)
        if b.map List.length = (List.range (nbr p).length).map (fun j => (rc p).getD j 0) then return b.flatten else Prog.fail) :=
      fun p hp => if_pos (hlen p hp)
    refine Locks.congr (P := fun p => (do
        let r ← Job.collective 1 (nbr p) ((List.range (nbr p).length).map (fun i => Wire.vals (block (sc p) (halosend (a p) (ind p)) i)))
        let b ← Proc.lift (r.mapM Wire.toVals)
        if b.map List.length = (List.range (nbr p).length).map (fun j => (rc p).getD j 0) then return b.flatten else Prog.fail)) (a := H) ?_
      (fun p hp => (this p hp).symm) (fun _ _ => rfl)
    refine Locks.bind (Locks.collective nbr _ sym) ?_
    refine Locks.bind (Locks.lift (a := fun p => (nbr p).map (fun q => blk q p)) (fun p hp => ?_)) ?_
    · apply mapM_map_some
      intro q hq
      rw [msgFor_map (sym p hp q hq).2, hblk]; rfl
    · refine (Locks.pure H).congr (fun p hp => ?_) (fun _ _ => rfl)
      rw [if_pos (by rw [List.map_map]; exact (key p hp).2), (key p hp).1]
  · have hS1 : SIZE = 1 := by omega
    subst hS1
    have hc : commFor 1 data = fun _ => ⟨[0], [0], [0], [0]⟩ := by funext p; unfold commFor; rw [if_neg hS]
    rw [hc]
    unfold exchangeP
    simp only [List.length_singleton, if_true]
    refine Locks.bind (Locks.collective (fun _ => [0]) _ (fun p hp q hq => ⟨by simp at hq; omega, by simp; omega⟩)) ?_
    refine Locks.bind (Locks.lift (a := fun _ => [[]]) (fun p hp => ?_)) ?_
    · have : p = 0 := by omega
      subst this
      rfl
    · refine (Locks.pure H).congr (fun p hp => ?_) (fun _ _ => rfl)
      have := he p hp
      unfold Run.exchange at this
      rw [if_pos rfl] at this
      rw [← Option.some.inj this]
      rfl

/-! ### the exchange of ghost cells -/

theorem foldl_congr_mem {α β : Type} (l : List β) (f g : α → β → α) (h : ∀ b ∈ l, ∀ a, f a b = g a b) (a : α) : l.foldl f a = l.foldl g a := by
  induction l generalizing a with
  | nil => rfl
  | cons x l ih =>
    rw [List.foldl_cons, List.foldl_cons, h x (by simp), ih (fun b hb => h b (by simp [hb]))]

theorem foldlM_congr_mem {α β : Type} (l : List β) (f g : α → β → Option α) (h : ∀ b ∈ l, ∀ a, f a b = g a b) (a : α) :
    l.foldlM f a = l.foldlM g a := by
  induction l generalizing a with
  | nil => rfl
  | cons x l ih =>
    rw [List.foldlM_cons, List.foldlM_cons, h x (by simp)]
    congr 1
    funext b
    exact ih (fun b hb => h b (by simp [hb])) b

theorem depl_congr {SIZE : Nat} {f g : Nat → Nat} (h : ∀ q < SIZE, f q = g q) : depl SIZE f = depl SIZE g := by
  unfold depl
  apply foldl_congr_mem
  intro i hi s
  rw [List.mem_range'_1] at hi
  rw [h (i - 1) (by omega)]

theorem store_eq {α : Type} {SIZE : Nat} {scount sdepl : Nat → Nat → Nat} (send : Nat → List α) (p : Nat) (rcount : Nat → Nat)
    (hr : ∀ q < SIZE, rcount q = scount q p) :
    storeBlocks SIZE rcount (depl SIZE rcount) ((List.range SIZE).map (fun q => ((send q).drop (sdepl q p)).take (scount q p))) =
      alltoallv SIZE scount sdepl (fun r q => scount q r) (fun r => depl SIZE (fun q => scount q r)) send p := by
  unfold storeBlocks alltoallv
  apply foldlM_congr_mem
  intro q hq acc
  have hq : q < SIZE := by simpa using hq
  rw [range_getD_map _ _ hq, hr q hq, depl_congr hr]
  simp

theorem ghostExchange_lock {SIZE : Nat} {dat : Nat → RankGhost K} {ex : Nat → (Nat → List (GRow K)) × (Nat → List (List K))}
    (he : ∀ p < SIZE, HaloGhost.exchange SIZE dat p = some (ex p)) : Locks SIZE (fun p => ghostExchangeP SIZE p (dat p)) ex := by
  obtain ⟨sc, hsc⟩ : ∃ sc : Nat → Nat → Nat, sc = fun q => scountNode (dat q).neigh (sendLoop (dat q) q).taille := ⟨_, rfl⟩
  have h1 : ∀ p, ∃ gch gfh, p < SIZE → alltoallv SIZE sc (fun q => depl SIZE (sc q)) (fun r q => sc q r) (fun r => depl SIZE (fun q => sc q r))
        (fun q => sendBuf SIZE (sendLoop (dat q) q).gc) p = some gch ∧
      alltoallv SIZE sc (fun q => depl SIZE (sc q)) (fun r q => sc q r) (fun r => depl SIZE (fun q => sc q r))
        (fun q => sendBuf SIZE (sendLoop (dat q) q).gf) p = some gfh ∧
      ex p = (extendNodes (dat p).halonodes (dat p).gnode (recvDict (gch.map (fun m => (m.node, m.row)))),
        extendNodes (dat p).halonodes (dat p).gnode (recvDict ((gch.map (fun m => m.node)).zip gfh))) := by
    intro p
    by_cases hp : p < SIZE
    · have h := he p hp
      unfold HaloGhost.exchange at h
      simp only [bind, Option.bind_eq_some_iff, pure, Option.some.injEq] at h
      obtain ⟨gch, e1, gfh, e2, e3⟩ := h
      exact ⟨gch, gfh, fun _ => ⟨by rw [hsc]; exact e1, by rw [hsc]; exact e2, e3.symm⟩⟩
    · exact ⟨[], [], fun h => absurd h hp⟩
  choose gch gfh h1 using h1
  have hP : (fun p => ghostExchangeP SIZE p (dat p)) = fun p => (do
      let r ← Job.allToAll 0 SIZE (fun q => .count (sc p q))
      let rc ← Proc.lift (r.mapM Wire.toCount)
      let g ← Job.allToAll 0 SIZE (fun q => .ghosts (((sendBuf SIZE (sendLoop (dat p) p).gc).drop (depl SIZE (sc p) q)).take (sc p q)))
      let g ← Proc.lift (g.mapM Wire.toGhosts)
      let gch ← Proc.lift (storeBlocks SIZE (fun q => rc.getD q 0) (depl SIZE (fun q => rc.getD q 0)) g)
      let f ← Job.allToAll 0 SIZE (fun q => .infos (((sendBuf SIZE (sendLoop (dat p) p).gf).drop (depl SIZE (sc p) q)).take (sc p q)))
      let f ← Proc.lift (f.mapM Wire.toInfos)
      let gfh ← Proc.lift (storeBlocks SIZE (fun q => rc.getD q 0) (depl SIZE (fun q => rc.getD q 0)) f)
      return (extendNodes (dat p).halonodes (dat p).gnode (recvDict (gch.map (fun m => (m.node, m.row)))),
        extendNodes (dat p).halonodes (dat p).gnode (recvDict ((gch.map (fun m => m.node)).zip gfh)))) := by
    rw [hsc]; rfl
  rw [hP]
  refine Locks.bind (Locks.allToAll (fun p q => .count (sc p q))) ?_
  refine Locks.bind (Locks.lift (a := fun p => (List.range SIZE).map (fun q => sc q p))
    (fun p _ => mapM_map_some _ _ _ _ (fun _ _ => rfl))) ?_
  refine Locks.bind (Locks.allToAll (fun p q => .ghosts (((sendBuf SIZE (sendLoop (dat p) p).gc).drop (depl SIZE (sc p) q)).take (sc p q)))) ?_
  refine Locks.bind (Locks.lift (a := fun p => (List.range SIZE).map (fun q => ((sendBuf SIZE (sendLoop (dat q) q).gc).drop (depl SIZE (sc q) p)).take (sc q p)))
    (fun p _ => mapM_map_some _ _ _ _ (fun _ _ => rfl))) ?_
  refine Locks.bind (Locks.lift (a := gch) (fun p hp => ?_)) ?_
  · exact (store_eq (scount := sc) (sdepl := fun q => depl SIZE (sc q)) (fun q => sendBuf SIZE (sendLoop (dat q) q).gc) p
      (fun q => ((List.range SIZE).map (fun q => sc q p)).getD q 0) (fun q hq => range_getD_map _ _ hq)).trans (h1 p hp).1
  refine Locks.bind (Locks.allToAll (fun p q => .infos (((sendBuf SIZE (sendLoop (dat p) p).gf).drop (depl SIZE (sc p) q)).take (sc p q)))) ?_
  refine Locks.bind (Locks.lift (a := fun p => (List.range SIZE).map (fun q => ((sendBuf SIZE (sendLoop (dat q) q).gf).drop (depl SIZE (sc q) p)).take (sc q p)))
    (fun p _ => mapM_map_some _ _ _ _ (fun _ _ => rfl))) ?_
  refine Locks.bind (Locks.lift (a := gfh) (fun p hp => ?_)) ?_
  · exact (store_eq (scount := sc) (sdepl := fun q => depl SIZE (sc q)) (fun q => sendBuf SIZE (sendLoop (dat q) q).gf) p
      (fun q => ((List.range SIZE).map (fun q => sc q p)).getD q 0) (fun q hq => range_getD_map _ _ hq)).trans (h1 p hp).2.1
  · exact (Locks.pure _).congr (fun _ _ => rfl) (fun p hp => (h1 p hp).2.2.symm)

theorem haloGhost_lock {dim SIZE : Nat} {data : Nat → RankData K} {D : Nat → Tables K} {hg : Nat → HGResult K}
    (he : ∀ p < SIZE, haloGhosts dim SIZE data D p = some (hg p)) :
    Locks SIZE (fun p => haloGhostP dim (2 * dim) SIZE p (domRankGhost dim (data p) (D p))) hg := by
  obtain ⟨dat, hdat⟩ : ∃ dat, dat = fun q => domRankGhost dim (data q) (D q) := ⟨_, rfl⟩
  have h1 : ∀ p, ∃ ex num, p < SIZE → (if SIZE > 1 then HaloGhost.exchange SIZE dat p else some (fun _ => [], fun _ => [])) = some ex ∧
      numberNodes (haloexttoind (dat p)) (dat p).halonodes
        (padRows (dat p).nbnodes (HaloGhost.padRow dim) (List.replicate (2 * dim) (-1)) ex.1 ex.2).1 = some num ∧
      hg p = { ghosts := (padRows (dat p).nbnodes (HaloGhost.padRow dim) (List.replicate (2 * dim) (-1)) (dat p).ghosts (dat p).info).1
               info := (padRows (dat p).nbnodes (HaloGhost.padRow dim) (List.replicate (2 * dim) (-1)) (dat p).ghosts (dat p).info).2
               haloghosts := num.1
               haloinfo := (padRows (dat p).nbnodes (HaloGhost.padRow dim) (List.replicate (2 * dim) (-1)) ex.1 ex.2).2
               size := num.2 } := by
    intro p
    by_cases hp : p < SIZE
    · have h := he p hp
      unfold haloGhosts updateHaloGhost at h
      by_cases hS : SIZE > 1
      · simp only [if_pos hS, bind, Option.bind_eq_some_iff, pure, Option.some.injEq] at h
        obtain ⟨ex, e1, num, e2, e3⟩ := h
        exact ⟨ex, num, fun _ => ⟨by rw [hdat, if_pos hS]; exact e1, by rw [hdat]; exact e2, by rw [hdat]; exact e3.symm⟩⟩
      · simp only [if_neg hS, bind, Option.bind_some, Option.bind_eq_some_iff, pure, Option.some.injEq] at h
        obtain ⟨num, e2, e3⟩ := h
        exact ⟨(fun _ => [], fun _ => []), num, fun _ => ⟨by rw [if_neg hS], by rw [hdat]; exact e2, by rw [hdat]; exact e3.symm⟩⟩
    · exact ⟨(fun _ => [], fun _ => []), (fun _ => [], 0), fun h => absurd h hp⟩
  choose ex num h1 using h1
  have key : ∀ ex' : Nat → (Nat → List (GRow K)) × (Nat → List (List K)), (∀ p < SIZE, ex' p = ex p) → Locks SIZE (fun p => (do
      let num ← Proc.lift (numberNodes (haloexttoind (dat p)) (dat p).halonodes
        (padRows (dat p).nbnodes (HaloGhost.padRow dim) (List.replicate (2 * dim) (-1)) (ex' p).1 (ex' p).2).1)
      return { ghosts := (padRows (dat p).nbnodes (HaloGhost.padRow dim) (List.replicate (2 * dim) (-1)) (dat p).ghosts (dat p).info).1
               info := (padRows (dat p).nbnodes (HaloGhost.padRow dim) (List.replicate (2 * dim) (-1)) (dat p).ghosts (dat p).info).2
               haloghosts := num.1
               haloinfo := (padRows (dat p).nbnodes (HaloGhost.padRow dim) (List.replicate (2 * dim) (-1)) (ex' p).1 (ex' p).2).2
               size := num.2 } : Prog (Wire K) (HGResult K))) hg := by
    intro ex' he'
    refine Locks.bind (Locks.lift (a := num) (fun p hp => by rw [he' p hp]; exact (h1 p hp).2.1)) ?_
    exact (Locks.pure _).congr (fun _ _ => rfl) (fun p hp => by rw [he' p hp]; exact (h1 p hp).2.2.symm)
  rw [hdat] at key
  unfold haloGhostP
  by_cases hS : SIZE > 1
  · simp only [if_pos hS]
    refine Locks.bind (a := ex) (ghostExchange_lock (fun p hp => ?_)) ?_
    · have := (h1 p hp).1
      rwa [if_pos hS, hdat] at this
    · exact key ex (fun _ _ => rfl)
  · simp only [if_neg hS]
    exact key (fun _ => (fun _ => [], fun _ => [])) (fun p hp => by
      have := (h1 p hp).1
      rw [if_neg hS] at this
      exact Option.some.inj this)

/-! ### the methods of a `Variable` and the time loop -/

/-- What process `p` holds. -/
def localOf (W : World K) (p : Nat) : Local K := ⟨W.dim, W.SIZE, W.data p, W.D p, commFor W.SIZE W.data p, W.hg p⟩

theorem exchangeAll_lock {W : World K} (h : CommOk W.SIZE W.data) (h0 : 0 < W.SIZE) {a : Nat → Nat → K} {H : Nat → List K}
    (he : exchangeAll W a = some H) : Locks W.SIZE (fun p => exchangeP (localOf W p).c (a p)) H := by
  unfold exchangeAll at he
  rw [Option.map_eq_some_iff] at he
  obtain ⟨l, hl, e⟩ := he
  refine exchange_lock h h0 a H (fun p hp => ?_)
  obtain ⟨b, h1, h2, h3⟩ := mapM_range_ok hl p hp
  rw [h1, ← e]
  dsimp only
  rw [List.getD_eq_getElem _ _ (by omega)] at h2 ⊢
  rw [h2]

theorem updateHaloValue_lock {W : World K} (h : CommOk W.SIZE W.data) (h0 : 0 < W.SIZE) {V V' : Nat → Vari K}
    (he : updateHaloValue W V = some V') : Locks W.SIZE (fun p => updateHaloValueP (localOf W p) (V p)) V' := by
  unfold updateHaloValue at he
  rw [Option.map_eq_some_iff] at he
  obtain ⟨H, hH, e⟩ := he
  unfold updateHaloValueP
  refine Locks.bind (exchangeAll_lock h h0 hH) (Locks.bind Locks.barrier ?_)
  exact (Locks.pure _).congr (fun _ _ => rfl) (fun p _ => by rw [← e])

theorem updateValues_lock {W : World K} (h : CommOk W.SIZE W.data) (h0 : 0 < W.SIZE) (bc : Int → BCond K) {V V' : Nat → Vari K}
    (he : updateValues W bc V = some V') : Locks W.SIZE (fun p => updateValuesP (localOf W p) bc (V p)) V' := by
  unfold updateValues at he
  rw [Option.map_eq_some_iff] at he
  obtain ⟨V1, hV, e⟩ := he
  unfold updateValuesP
  refine Locks.bind (updateHaloValue_lock h h0 hV) ?_
  exact (Locks.pure _).congr (fun _ _ => rfl) (fun p _ => by rw [← e]; rfl)

theorem celltonode_lock {W : World K} (h : CommOk W.SIZE W.data) (h0 : 0 < W.SIZE) (bc : Int → BCond K) {V : Nat → Vari K}
    {r : (Nat → Vari K) × (Nat → Nat → K)} (he : celltonode W bc V = some r) :
    Locks W.SIZE (fun p => celltonodeP (localOf W p) bc (V p)) (fun p => (r.1 p, r.2 p)) := by
  unfold celltonode at he
  rw [Option.map_eq_some_iff] at he
  obtain ⟨V1, hV, e⟩ := he
  unfold celltonodeP
  refine Locks.bind (updateValues_lock h h0 bc hV) ?_
  exact (Locks.pure _).congr (fun _ _ => rfl) (fun p _ => by rw [← e]; rfl)

theorem cellGradient_lock {W : World K} (h : CommOk W.SIZE W.data) (h0 : 0 < W.SIZE) (bc : Int → BCond K) {V : Nat → Vari K}
    {r : (Nat → Vari K) × (Nat → Grads K)} (he : cellGradient W bc V = some r) :
    Locks W.SIZE (fun p => cellGradientP (localOf W p) bc (V p)) (fun p => (r.1 p, r.2 p)) := by
  unfold cellGradient at he
  rw [Option.bind_eq_some_iff] at he
  obtain ⟨V1, hV, he⟩ := he
  rw [Option.bind_eq_some_iff] at he
  obtain ⟨hx, ex, he⟩ := he
  rw [Option.bind_eq_some_iff] at he
  obtain ⟨hy, ey, he⟩ := he
  rw [Option.bind_eq_some_iff] at he
  obtain ⟨hz, ez, he⟩ := he
  rw [Option.map_eq_some_iff] at he
  obtain ⟨hp, ep, e⟩ := he
  unfold cellGradientP
  refine Locks.bind (updateValues_lock h h0 bc hV) (Locks.bind Locks.barrier ?_)
  refine Locks.bind (exchangeAll_lock h h0 ex) (Locks.bind (exchangeAll_lock h h0 ey) (Locks.bind (exchangeAll_lock h h0 ez)
    (Locks.bind (exchangeAll_lock h h0 ep) ?_)))
  exact (Locks.pure _).congr (fun _ _ => rfl) (fun p _ => by rw [← e]; rfl)

theorem faceGradient_lock {W : World K} (h : CommOk W.SIZE W.data) (h0 : 0 < W.SIZE) (bc : Int → BCond K) {V : Nat → Vari K}
    {r : (Nat → Vari K) × (Nat → Nat → K) × (Nat → Nat → Geo.Vec K)} (he : faceGradient W bc V = some r) :
    Locks W.SIZE (fun p => faceGradientP (localOf W p) bc (V p)) (fun p => (r.1 p, r.2.1 p, r.2.2 p)) := by
  unfold faceGradient at he
  rw [Option.map_eq_some_iff] at he
  obtain ⟨V1, hV, e⟩ := he
  unfold faceGradientP
  refine Locks.bind (celltonode_lock h h0 bc hV) ?_
  exact (Locks.pure _).congr (fun _ _ => rfl) (fun p _ => by rw [← e]; rfl)

theorem allreduce_lock {SIZE : Nat} (h0 : 0 < SIZE) (dt : Nat → K) :
    Locks SIZE (fun p => allreduceMinP SIZE (dt p)) (fun _ => allreduceMin SIZE dt) := by
  unfold allreduceMinP
  refine Locks.bind (Locks.allToAll (fun p _ => .vals [dt p])) ?_
  refine Locks.bind (Locks.lift (a := fun p => (List.range SIZE).map (fun q => [dt q])) (fun p _ => mapM_map_some _ _ _ _ (fun _ _ => rfl))) ?_
  refine (Locks.pure _).congr (fun _ _ => rfl) (fun p _ => ?_)
  unfold allreduceMin
  beta_reduce
  rw [range_getD_map _ _ h0]
  apply foldl_congr_mem
  intro q hq m
  rw [range_getD_map _ _ (by simpa using hq)]
  rfl

/-- The state of the run on process `p`. -/
def rankState (s : TState K) (p : Nat) : RState K := ⟨s.V p, s.node p, s.time, s.iter⟩

theorem tstep_lock {W : World K} (h : CommOk W.SIZE W.data) (h0 : 0 < W.SIZE) (S : Setup K) (order : Int) (diff : Bool) {s s' : TState K}
    (he : tstep W S order diff s = some s') : Locks W.SIZE (fun p => tstepP (localOf W p) S order diff (rankState s p)) (rankState s') := by
  unfold tstep at he
  rw [Option.bind_eq_some_iff] at he
  obtain ⟨V1, hV, he⟩ := he
  simp only [Option.bind_eq_some_iff] at he
  obtain ⟨r, hr, he⟩ := he
  unfold tstepP
  refine Locks.bind (updateValues_lock h h0 S.bc hV) ?_
  refine Locks.bind (allreduce_lock h0 (fun p => localStep W.dim S (W.D p) s.iter)) ?_
  refine Locks.bind (cellGradient_lock h h0 S.bc hr) ?_
  cases diff with
  | true =>
    simp only [if_true] at he ⊢
    rw [Option.bind_eq_some_iff] at he
    obtain ⟨q, hq, he⟩ := he
    rw [Option.map_eq_some_iff] at he
    obtain ⟨o, ho, e⟩ := he
    refine Locks.bind (faceGradient_lock h h0 S.bc hq) ?_
    refine Locks.bind (celltonode_lock h h0 S.bc ho) ?_
    exact (Locks.pure _).congr (fun _ _ => rfl) (fun p _ => by rw [← e]; rfl)
  | false =>
    simp only [Bool.false_eq_true, if_false] at he ⊢
    exact (Locks.pure _).congr (fun _ _ => rfl) (fun p _ => by rw [← Option.some.inj he]; rfl)

theorem tloop_front (W : World K) (S : Setup K) (order : Int) (diff : Bool) (N : Nat) (s : TState K) :
    tloop W S order diff s (N + 1) = if s.time < S.tfinal then (tstep W S order diff s).bind (fun s => tloop W S order diff s N) else some s := by
  induction N generalizing s with
  | zero =>
    have : tloop W S order diff s (0 + 1) = (some s).bind (fun s => if s.time < S.tfinal then tstep W S order diff s else some s) := rfl
    rw [this, Option.bind_some]
    have h0 : (fun s => tloop W S order diff s 0) = some := by funext s; rfl
    rw [h0]
    simp
  | succ N ih =>
    have e : tloop W S order diff s (N + 1 + 1) =
      (tloop W S order diff s (N + 1)).bind (fun s => if s.time < S.tfinal then tstep W S order diff s else some s) := rfl
    rw [e, ih]
    by_cases hs : s.time < S.tfinal
    · rw [if_pos hs, if_pos hs, Option.bind_assoc]; rfl
    · rw [if_neg hs, if_neg hs, Option.bind_some, if_neg hs]

theorem while_lock {W : World K} (h : CommOk W.SIZE W.data) (h0 : 0 < W.SIZE) (S : Setup K) (order : Int) (diff : Bool) (N : Nat) {s s' : TState K}
    (he : tloop W S order diff s N = some s') : Locks W.SIZE (fun p => whileP (localOf W p) S order diff N (rankState s p)) (rankState s') := by
  induction N generalizing s with
  | zero =>
    have : s = s' := Option.some.inj he
    subst this
    exact Locks.pure _
  | succ N ih =>
    rw [tloop_front] at he
    by_cases hs : s.time < S.tfinal
    · rw [if_pos hs, Option.bind_eq_some_iff] at he
      obtain ⟨s1, e1, e2⟩ := he
      have hP : (fun p => whileP (localOf W p) S order diff (N + 1) (rankState s p)) =
          fun p => tstepP (localOf W p) S order diff (rankState s p) >>= whileP (localOf W p) S order diff N := by
        funext p
        exact if_pos hs
      rw [hP]
      exact Locks.bind (tstep_lock h h0 S order diff e1) (ih e2)
    · rw [if_neg hs] at he
      have : s = s' := Option.some.inj he
      subst this
      have hP : (fun p => whileP (localOf W p) S order diff (N + 1) (rankState s p)) = fun p => pure (rankState s p) := by
        funext p
        exact if_neg hs
      rw [hP]
      exact Locks.pure _

theorem job_lock {dim SIZE : Nat} {data : Nat → RankData K} {D : Nat → Tables K} {W : World K} (h : CommOk SIZE data) (h0 : 0 < SIZE)
    (hW : mkWorld dim SIZE data D = some W) (S : Setup K) (order : Int) (diff : Bool) (init : K → K → K → K) (N : Nat) {s : TState K}
    (he : tloop W S order diff (tstart W init) N = some s) :
    Locks SIZE (fun p => job dim SIZE p (data p) (D p) S order diff init N) (rankState s) := by
  unfold mkWorld at hW
  rw [Option.map_eq_some_iff] at hW
  obtain ⟨l, hl, e⟩ := hW
  subst e
  unfold job
  refine Locks.bind (prepare_lock h) ?_
  refine Locks.bind (haloGhost_lock (hg := fun p => l.getD p ⟨fun _ => [], fun _ => [], fun _ => [], fun _ => [], 0⟩) (fun p hp => ?_)) ?_
  · obtain ⟨b, h1, h2, h3⟩ := mapM_range_ok hl p hp
    rw [h1, List.getD_eq_getElem _ _ (by omega)]
    rw [List.getD_eq_getElem _ _ (by omega)] at h2
    rw [h2]
  · exact while_lock (W := ⟨dim, SIZE, data, D, fun p => l.getD p ⟨fun _ => [], fun _ => [], fun _ => [], fun _ => [], 0⟩⟩) h h0 S order diff N he

end Verif.Props.Par
