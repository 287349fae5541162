import Verif.Model.Evolutionary

/-!
# `PSO` and `DE` objects with shared arrays

`Model/Evolutionary.lean` treats arrays as values.  Here arrays live in a memory, attributes hold references, assignments such as
`self.pop_best = self.obj` copy references, and indexed assignments write in place, as in
`src/mfpml/optimization/evolutionary_algorithms.py`.  What can be shared in the code is:

* the position arrays the optimiser hands to the objective (`self.x`, `self.u`) and keeps using afterwards,
* the arrays the objective returns, which the optimiser keeps (`np.reshape` returns a view) and writes to,
* the history arrays of a run, which the results dictionary refers to.

All arrays of one memory have the same `num_pop` and `num_dim`.  `self.v` and `self.v_max` are never handed out and are values here.
-/

namespace Mfpml.EAHeap

open Mfpml.EA

variable {K : Type} [Add K] [Sub K] [Mul K] [Div K] [Neg K] [Zero K] [LinearOrder K]

/-- The four history arrays allocated together at the start of a run (evolutionary_algorithms.py:205-212, 379-383). -/
structure Hist (K : Type) (P D : ℕ) where
  genBest : ℕ → K
  genBestXs : ℕ → Fin D → K
  samples : ℕ → Pop K P D
  responses : ℕ → Fin P → K

/-- The memory: position arrays, arrays owned by the objective, and history arrays of runs, each with its address
(evolutionary_algorithms.py:197-212, 275-291, 370-383, 421-433). `nextPop`, `nextHist` are the first unused addresses. -/
structure Mem (K : Type) (P D : ℕ) where
  pops : ℕ → Pop K P D
  nextPop : ℕ
  bufs : ℕ → Fin P → K
  hists : ℕ → Hist K P D
  nextHist : ℕ

/-- What a reshaped return value of the objective refers to (evolutionary_algorithms.py:279-280, 313-314, 426-427, 495-496): an array of the
objective, or — `np.reshape` of a slice is a view — column `j` of a position array. -/
inductive ColRef (D : ℕ) where
  | buf (k : ℕ)
  | view (r : ℕ) (j : Fin D)
  deriving DecidableEq

/-- Reading a column (evolutionary_algorithms.py:317-322, 494-506). -/
def Mem.col {P D : ℕ} (m : Mem K P D) : ColRef D → Fin P → K
  | .buf k => m.bufs k
  | .view r j => fun i => m.pops r i j

/-- In-place assignment to a whole position array (evolutionary_algorithms.py:98-111, 322, 435-490, 499). -/
def Mem.setPop {P D : ℕ} (m : Mem K P D) (r : ℕ) (x : Pop K P D) : Mem K P D :=
  { m with pops := Function.update m.pops r x }

/-- In-place assignment to a column (evolutionary_algorithms.py:320, 500). -/
def Mem.setCol {P D : ℕ} (m : Mem K P D) (c : ColRef D) (v : Fin P → K) : Mem K P D :=
  match c with
  | .buf k => { m with bufs := Function.update m.bufs k v }
  | .view r j => { m with pops := Function.update m.pops r fun i => Function.update (m.pops r i) j (v i) }

/-- A new position array (the result of an arithmetic expression or of `np.zeros`; evolutionary_algorithms.py:57-63, 306, 424-425). -/
def Mem.newPop {P D : ℕ} (m : Mem K P D) (x : Pop K P D) : Mem K P D :=
  { m with pops := Function.update m.pops m.nextPop x, nextPop := m.nextPop + 1 }

/-- `np.zeros` for the four history arrays (evolutionary_algorithms.py:205-212, 379-383). -/
def Mem.newHist {P D : ℕ} (m : Mem K P D) : Mem K P D :=
  { m with hists := Function.update m.hists m.nextHist ⟨fun _ => 0, fun _ _ => 0, fun _ _ _ => 0, fun _ _ => 0⟩
           nextHist := m.nextHist + 1 }

/-- In-place assignment to rows of the history arrays (evolutionary_algorithms.py:286-291, 310, 315, 324-333). -/
def Mem.setHist {P D : ℕ} (m : Mem K P D) (r : ℕ) (h : Hist K P D) : Mem K P D :=
  { m with hists := Function.update m.hists r h }

/-- Where the objective puts the values of its `n`-th call: into its array number `k`, or nowhere because it returns column `j` of its argument
(evolutionary_algorithms.py:279, 313, 426, 495). -/
inductive Reply (D : ℕ) where
  | array (k : ℕ)
  | column (j : Fin D)

/-- A user's objective function (called at evolutionary_algorithms.py:279, 313, 426, 495): the values it computes, and for every call of a run the
array it returns them in.  An objective that makes a new array on every call has `reply n = .array (k n)` with an injective `k`; one that
fills the same array again and again has a constant `reply`.  It does not write to its argument. -/
structure Objective (K : Type) (P D : ℕ) where
  value : Pop K P D → Fin P → K
  reply : ℕ → Reply D
  column_ok : ∀ n j, reply n = .column j → ∀ x i, value x i = x i j

/-- The `n`-th call of the objective in a run, on the position array `r`, and the reshape that follows
(evolutionary_algorithms.py:279-280, 313-314, 426-427, 495-496). -/
def Objective.call {P D : ℕ} (o : Objective K P D) (n : ℕ) (m : Mem K P D) (r : ℕ) : Mem K P D × ColRef D :=
  match o.reply n with
  | .array k => ({ m with bufs := Function.update m.bufs k (o.value (m.pops r)) }, .buf k)
  | .column j => (m, .view r j)

/-- `__update_gen_optimum` (evolutionary_algorithms.py:324-333 and 508-517) on the history arrays. -/
def histOptimum {p D : ℕ} (iter : ℕ) (h : Hist K (p + 1) D) (x : Pop K (p + 1) D) (obj : Fin (p + 1) → K) : Hist K (p + 1) D :=
  let r := updateGenOptimum iter h.genBest h.genBestXs x obj
  { h with genBest := r.1, genBestXs := r.2 }

/-- The histories after the initialiser (evolutionary_algorithms.py:286-291, 428-433). -/
def histInit {p D : ℕ} (h : Hist K (p + 1) D) (x : Pop K (p + 1) D) (obj : Fin (p + 1) → K) : Hist K (p + 1) D :=
  { genBest := Function.update h.genBest 0 (genBestObj obj)
    genBestXs := Function.update h.genBestXs 0 (genBestX x obj)
    samples := Function.update h.samples 0 x
    responses := Function.update h.responses 0 obj }

/-- What `run_optimizer` hands back (evolutionary_algorithms.py:237-253, 404-419): references to the run's history arrays, the number `iter + 1` of the row of the
third return value (a view), and the second return value (a number).  Ghost, not in the code: the populations the
objective was called with at the time of the calls, the arrays they were in, and the arrays it returned. -/
structure Handle (K : Type) (P D : ℕ) where
  hist : ℕ
  numGen : ℕ
  row : ℕ
  retY : K
  calls : List (Pop K P D)
  argRefs : List ℕ
  retRefs : List (ColRef D)

/-- Reading the returned results in memory `m` (evolutionary_algorithms.py:237-253, 404-419). -/
def Handle.read {P D : ℕ} (h : Handle K P D) (m : Mem K P D) : Result K P D :=
  { bestX := (m.hists h.hist).genBestXs h.numGen
    bestY := (m.hists h.hist).genBest h.numGen
    bestXHist := (m.hists h.hist).genBestXs
    bestYHist := (m.hists h.hist).genBest
    allSamples := (m.hists h.hist).samples
    allResponses := (m.hists h.hist).responses
    retY := h.retY
    retX := (m.hists h.hist).genBestXs h.row
    calls := h.calls }

/-! ## PSO -/

/-- Attributes of a `PSO` object that a run sets (evolutionary_algorithms.py:205-212, 255-291), with the ghost logs of the run. -/
structure PSOAttrs (K : Type) (P D : ℕ) where
  x : ℕ
  v : Pop K P D
  obj : ColRef D
  popBest : ColRef D
  popBestX : ℕ
  hist : ℕ
  calls : List (Pop K P D)
  argRefs : List ℕ
  retRefs : List (ColRef D)

/-- `run_optimizer` up to and including `_pso_initializer` (evolutionary_algorithms.py:197-215, 275-291) on an object with arbitrary attributes `self`;
`self.pop_best = self.obj` and `self.pop_best_x = self.x` copy references.  (The `np.zeros` arrays of lines 207-208 are dropped unread.) -/
def psoInitM {p D : ℕ} (cfg : PSOCfg K) (b : Box K D) (o : Objective K (p + 1) D) (rnd : PSORand K (p + 1) D)
    (self : PSOAttrs K (p + 1) D) (m : Mem K (p + 1) D) : PSOAttrs K (p + 1) D × Mem K (p + 1) D :=
  let m1 := m.newHist
  let self1 := { self with hist := m.nextHist }
  let m2 := m1.newPop (locInit b rnd.pos)
  let self2 := { self1 with x := m1.nextPop }
  let self3 := { self2 with v := fun i j => rnd.vel i j * vMax cfg b j }
  let (m3, c) := o.call 0 m2 self3.x
  let self4 := { self3 with obj := c, calls := [m2.pops self3.x], argRefs := [self3.x], retRefs := [c] }
  let self5 := { self4 with popBest := self4.obj, popBestX := self4.x }
  (self5, m3.setHist self5.hist (histInit (m3.hists self5.hist) (m3.pops self5.x) (m3.col self5.obj)))

/-- `PSO.__update_pop` (evolutionary_algorithms.py:293-310): `self.x + self.v` is a new array, which `_loc_cons` then changes in place. -/
def psoUpdatePopM {P D : ℕ} (cfg : PSOCfg K) (b : Box K D) (rnd : PSORand K P D) (iter : ℕ)
    (self : PSOAttrs K P D) (m : Mem K P D) : PSOAttrs K P D × Mem K P D :=
  let v' : Pop K P D := fun i j =>
    cfg.weight * self.v i j + cfg.cognition * (m.pops self.popBestX i j - m.pops self.x i j)
      + cfg.social * ((m.hists self.hist).genBestXs iter j - m.pops self.x i j)
  let v := velocityCons (vMax cfg b) v'
  let m1 := m.newPop (fun i j => m.pops self.x i j + v i j)
  let self1 := { self with v := v, x := m.nextPop }
  let m2 := m1.setPop self1.x (locCons b (rnd.repl iter) (m1.pops self1.x))
  let h := m2.hists self1.hist
  (self1, m2.setHist self1.hist { h with samples := Function.update h.samples (iter + 1) (m2.pops self1.x) })

/-- `PSO.__update_obj` (evolutionary_algorithms.py:312-315). -/
def psoUpdateObjM {P D : ℕ} (o : Objective K P D) (iter : ℕ) (self : PSOAttrs K P D) (m : Mem K P D) :
    PSOAttrs K P D × Mem K P D :=
  let (m1, c) := o.call (iter + 1) m self.x
  let self1 := { self with obj := c, calls := self.calls ++ [m.pops self.x], argRefs := self.argRefs ++ [self.x]
                           retRefs := self.retRefs ++ [c] }
  let h := m1.hists self1.hist
  (self1, m1.setHist self1.hist { h with responses := Function.update h.responses (iter + 1) (m1.col self1.obj) })

/-- `PSO.__update_pop_optimum` (evolutionary_algorithms.py:317-322): the index set is computed first, then the two arrays are written in place. -/
def psoUpdatePopOptimumM {P D : ℕ} (self : PSOAttrs K P D) (m : Mem K P D) : Mem K P D :=
  let better : Fin P → Bool := fun i => decide (m.col self.obj i ≤ m.col self.popBest i)
  let m1 := m.setCol self.popBest fun i => if better i then m.col self.obj i else m.col self.popBest i
  m1.setPop self.popBestX fun i => if better i then m1.pops self.x i else m1.pops self.popBestX i

/-- `PSO.__update_gen_optimum` (evolutionary_algorithms.py:324-333). -/
def psoUpdateGenOptimumM {p D : ℕ} (iter : ℕ) (self : PSOAttrs K (p + 1) D) (m : Mem K (p + 1) D) : Mem K (p + 1) D :=
  m.setHist self.hist (histOptimum iter (m.hists self.hist) (m.pops self.x) (m.col self.obj))

/-- Body of the main loop (evolutionary_algorithms.py:221-228). -/
def psoStepM {p D : ℕ} (cfg : PSOCfg K) (b : Box K D) (o : Objective K (p + 1) D) (rnd : PSORand K (p + 1) D) (iter : ℕ)
    (s : PSOAttrs K (p + 1) D × Mem K (p + 1) D) : PSOAttrs K (p + 1) D × Mem K (p + 1) D :=
  let s1 := psoUpdatePopM cfg b rnd iter s.1 s.2
  let s2 := psoUpdateObjM o iter s1.1 s1.2
  let m3 := psoUpdatePopOptimumM s2.1 s2.2
  (s2.1, psoUpdateGenOptimumM iter s2.1 m3)

/-- The main loop (evolutionary_algorithms.py:217-234), see `EA.psoLoop`. -/
def psoLoopM {p D : ℕ} (cfg : PSOCfg K) (b : Box K D) (o : Objective K (p + 1) D) (rnd : PSORand K (p + 1) D) (stop : Option K) :
    (more : ℕ) → (iter : ℕ) → PSOAttrs K (p + 1) D × Mem K (p + 1) D → (PSOAttrs K (p + 1) D × Mem K (p + 1) D) × ℕ
  | 0, iter, s => (psoStepM cfg b o rnd iter s, iter)
  | more + 1, iter, s =>
    let s' := psoStepM cfg b o rnd iter s
    if stopNow stop ((s'.2.hists s'.1.hist).genBest (iter + 1)) then (s', iter)
    else psoLoopM cfg b o rnd stop more (iter + 1) s'

/-- `PSO.run_optimizer` (evolutionary_algorithms.py:170-253) on an object with attributes `self`.  Errors as in `EA.psoRun`; a failing run leaves
the attributes and the memory as far as it got. (With `num_pop = 0` or `num_dim = 0` there are no array entries, so
nothing is written that could matter.) -/
def psoRunM {D : ℕ} : {P : ℕ} → PSOCfg K → Box K D → Objective K P D → Option K → PSORand K P D →
    PSOAttrs K P D → Mem K P D → Py (Handle K P D) × PSOAttrs K P D × Mem K P D
  | 0, _, _, _, _, _, self, m => (.error .valueError, { self with hist := m.nextHist }, m.newHist)
  | _ + 1, cfg, b, o, stop, rnd, self, m =>
    if D = 0 then (.error .valueError, { self with hist := m.nextHist }, m.newHist)
    else if ∀ j, 0 ≤ vMax cfg b j then
      match cfg.numGen with
      | 0 => let s := psoInitM cfg b o rnd self m
             (.error .unboundLocal, s.1, s.2)
      | g + 1 =>
        let (s, iter) := psoLoopM cfg b o rnd stop g 0 (psoInitM cfg b o rnd self m)
        (.ok { hist := s.1.hist
               numGen := cfg.numGen
               row := iter + 1
               retY := (s.2.hists s.1.hist).genBest (iter + 1)
               calls := s.1.calls
               argRefs := s.1.argRefs
               retRefs := s.1.retRefs }, s.1, s.2)
    else (.error .outOfModel, { self with hist := m.nextHist }, m.newHist)

/-! ## DE -/

/-- Attributes of a `DE` object that a run sets (evolutionary_algorithms.py:379-383, 421-433, 494-496), with the ghost logs. -/
structure DEAttrs (K : Type) (P D : ℕ) where
  x : ℕ
  u : ℕ
  obj : ColRef D
  objU : ColRef D
  hist : ℕ
  calls : List (Pop K P D)
  argRefs : List ℕ
  retRefs : List (ColRef D)

/-- `run_optimizer` up to and including `_de_initializer` (evolutionary_algorithms.py:370-386, 421-433). -/
def deInitM {p D : ℕ} (b : Box K D) (o : Objective K (p + 1) D) (rnd : DERand K (p + 1) D)
    (self : DEAttrs K (p + 1) D) (m : Mem K (p + 1) D) : DEAttrs K (p + 1) D × Mem K (p + 1) D :=
  let m1 := m.newHist
  let self1 := { self with hist := m.nextHist }
  let m2 := m1.newPop (locInit b rnd.pos)
  let self2 := { self1 with x := m1.nextPop }
  let m3 := m2.newPop (fun _ _ => 0)
  let self3 := { self2 with u := m2.nextPop }
  let (m4, c) := o.call 0 m3 self3.x
  let self4 := { self3 with obj := c, calls := [m3.pops self3.x], argRefs := [self3.x], retRefs := [c] }
  (self4, m4.setHist self4.hist (histInit (m4.hists self4.hist) (m4.pops self4.x) (m4.col self4.obj)))

/-- `DE.__update_pop` when no exception is raised (evolutionary_algorithms.py:435-490): the array `self.u` is filled in place, from `x` and the history. -/
def deUpdatePopM {p D : ℕ} (cfg : DECfg K) (b : Box K D) (rnd : DERand K (p + 1) D) (iter : ℕ)
    (self : DEAttrs K (p + 1) D) (m : Mem K (p + 1) D) : Mem K (p + 1) D :=
  let x := m.pops self.x
  let donor : Pop K (p + 1) D := fun ii =>
    if cfg.strategy = "DE/rand/1/bin" then donorRand cfg.stepSize x ii (rnd.choice3 iter ii)
    else donorBest cfg.stepSize x ((m.hists self.hist).genBestXs iter) ii (rnd.choice2 iter ii)
  let m1 := m.setPop self.u
    (fun ii => crossover cfg.crossoverRate (rnd.c iter ii) (rnd.cr iter ii) (donor ii) (x ii))
  m1.setPop self.u (locCons b (rnd.repl iter) (m1.pops self.u))

/-- One round of the selection loop (evolutionary_algorithms.py:498-501). -/
def deSelect {P D : ℕ} (self : DEAttrs K P D) (m : Mem K P D) (ii : Fin P) : Mem K P D :=
  if m.col self.objU ii < m.col self.obj ii then
    let m1 := m.setPop self.x (Function.update (m.pops self.x) ii (m.pops self.u ii))
    m1.setCol self.obj (Function.update (m1.col self.obj) ii (m1.col self.objU ii))
  else m

/-- `DE.__update_obj` (evolutionary_algorithms.py:494-506). -/
def deUpdateObjM {P D : ℕ} (o : Objective K P D) (iter : ℕ) (self : DEAttrs K P D) (m : Mem K P D) :
    DEAttrs K P D × Mem K P D :=
  let (m1, c) := o.call (iter + 1) m self.u
  let self1 := { self with objU := c, calls := self.calls ++ [m.pops self.u], argRefs := self.argRefs ++ [self.u]
                           retRefs := self.retRefs ++ [c] }
  let m2 := (List.finRange P).foldl (deSelect self1) m1
  let h := m2.hists self1.hist
  (self1, m2.setHist self1.hist { h with samples := Function.update h.samples (iter + 1) (m2.pops self1.x)
                                         responses := Function.update h.responses (iter + 1) (m2.col self1.obj) })

/-- `DE.__update_gen_optimum` (evolutionary_algorithms.py:508-517). -/
def deUpdateGenOptimumM {p D : ℕ} (iter : ℕ) (self : DEAttrs K (p + 1) D) (m : Mem K (p + 1) D) : Mem K (p + 1) D :=
  m.setHist self.hist (histOptimum iter (m.hists self.hist) (m.pops self.x) (m.col self.obj))

/-- Body of the main loop (evolutionary_algorithms.py:392-397) when no exception is raised. -/
def deStepM {p D : ℕ} (cfg : DECfg K) (b : Box K D) (o : Objective K (p + 1) D) (rnd : DERand K (p + 1) D) (iter : ℕ)
    (s : DEAttrs K (p + 1) D × Mem K (p + 1) D) : DEAttrs K (p + 1) D × Mem K (p + 1) D :=
  let s2 := deUpdateObjM o iter s.1 (deUpdatePopM cfg b rnd iter s.1 s.2)
  (s2.1, deUpdateGenOptimumM iter s2.1 s2.2)

/-- The main loop (evolutionary_algorithms.py:388-402), see `EA.deLoop`; the exceptions of `__update_pop` do not depend on the state, so only
the first iteration can raise (`EA.deCheck`), which `deRunM` tests before the loop. -/
def deLoopM {p D : ℕ} (cfg : DECfg K) (b : Box K D) (o : Objective K (p + 1) D) (rnd : DERand K (p + 1) D) (stop : Option K) :
    (more : ℕ) → (iter : ℕ) → DEAttrs K (p + 1) D × Mem K (p + 1) D → (DEAttrs K (p + 1) D × Mem K (p + 1) D) × ℕ
  | 0, iter, s => (deStepM cfg b o rnd iter s, iter)
  | more + 1, iter, s =>
    let s' := deStepM cfg b o rnd iter s
    if stopNow stop ((s'.2.hists s'.1.hist).genBest (iter + 1)) then (s', iter)
    else deLoopM cfg b o rnd stop more (iter + 1) s'

/-- `DE.run_optimizer` (evolutionary_algorithms.py:360-419) on an object with attributes `self`, see `psoRunM`. -/
def deRunM {D : ℕ} : {P : ℕ} → DECfg K → Box K D → Objective K P D → Option K → DERand K P D →
    DEAttrs K P D → Mem K P D → Py (Handle K P D) × DEAttrs K P D × Mem K P D
  | 0, _, _, _, _, _, self, m => (.error .valueError, { self with hist := m.nextHist }, m.newHist)
  | p + 1, cfg, b, o, stop, rnd, self, m =>
    if D = 0 then (.error .valueError, { self with hist := m.nextHist }, m.newHist)
    else
      let s0 := deInitM b o rnd self m
      match cfg.numGen with
      | 0 => (.error .unboundLocal, s0.1, s0.2)
      | g + 1 =>
        match deCheck cfg (p + 1) with
        | .error e => (.error e, s0.1, s0.2)
        | .ok _ =>
          let (s, iter) := deLoopM cfg b o rnd stop g 0 s0
          (.ok { hist := s.1.hist
                 numGen := cfg.numGen
                 row := iter + 1
                 retY := (s.2.hists s.1.hist).genBest (iter + 1)
                 calls := s.1.calls
                 argRefs := s.1.argRefs
                 retRefs := s.1.retRefs }, s.1, s.2)

/-! ## Several runs -/

/-- A call of `run_optimizer` (evolutionary_algorithms.py:170-180, 360-368) on the `PSO` or `DE` object number `k`. -/
inductive Request (K : Type) (P D : ℕ) where
  | pso (k : ℕ) (cfg : PSOCfg K) (b : Box K D) (o : Objective K P D) (stop : Option K) (rnd : PSORand K P D)
  | de (k : ℕ) (cfg : DECfg K) (b : Box K D) (o : Objective K P D) (stop : Option K) (rnd : DERand K P D)

/-- The objects of a program and the memory (evolutionary_algorithms.py:136-168, 345-358). -/
structure World (K : Type) (P D : ℕ) where
  psos : ℕ → PSOAttrs K P D
  des : ℕ → DEAttrs K P D
  mem : Mem K P D

/-- One call of `run_optimizer` (evolutionary_algorithms.py:170-253, 360-419). -/
def World.run {P D : ℕ} (w : World K P D) : Request K P D → Py (Handle K P D) × World K P D
  | .pso k cfg b o stop rnd =>
    let r := psoRunM cfg b o stop rnd (w.psos k) w.mem
    (r.1, { w with psos := Function.update w.psos k r.2.1, mem := r.2.2 })
  | .de k cfg b o stop rnd =>
    let r := deRunM cfg b o stop rnd (w.des k) w.mem
    (r.1, { w with des := Function.update w.des k r.2.1, mem := r.2.2 })

/-- A program that calls `run_optimizer` again and again, on the same or on different objects (evolutionary_algorithms.py:170-253, 360-419), going on after
exceptions.  Returns everything the calls returned and the final world. -/
def World.runAll {P D : ℕ} : World K P D → List (Request K P D) → List (Py (Handle K P D)) × World K P D
  | w, [] => ([], w)
  | w, q :: qs =>
    let r := w.run q
    let rest := World.runAll r.2 qs
    (r.1 :: rest.1, rest.2)

end Mfpml.EAHeap
