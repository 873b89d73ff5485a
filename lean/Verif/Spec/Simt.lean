import Verif.Spec.Meaning
/-! Execution of a structured program by many invocations in lockstep, as graphics processors do it: each block is issued for
the lanes that are active, and lanes that part in a construct come together again at its end. -/

namespace Magma.Spec
variable {X S : Type} {k : Nat}

/-- What a structured statement does to `k` lanes: the blocks issued, each with the lanes it was issued for, how the statement
ended for each lane, and where the lane got -/
structure Group (k : Nat) (S : Type) where
  log : List (BlockId × (Fin k → Bool))
  signal : Fin k → Signal
  config : Fin k → Config S

/-- Is there a lane to do something for? -/
def anyLane (mask : Fin k → Bool) : Bool := (List.finRange k).any mask

/-- Issue a block for the lanes of a mask, if there are any. -/
def Machine.issue (M : Machine X S) (blocks : List (BasicBlock X)) (id : BlockId) (mask : Fin k → Bool) (c : Fin k → Config S) :
    Group k S :=
  if anyLane mask then ⟨[(id, mask)], fun _ => .next, fun i => if mask i then M.arrive blocks id (c i) else c i⟩
  else ⟨[], fun _ => .next, c⟩

/-- The second statement for the lanes for which the first ended normally -/
def Group.andThen (g : Group k S) (mask : Fin k → Bool) (second : (Fin k → Bool) → (Fin k → Config S) → Group k S) : Group k S :=
  let going := fun i => mask i && g.signal i == .next
  let g' := second going g.config
  ⟨g.log ++ g'.log, fun i => if going i then g'.signal i else g.signal i, g'.config⟩

/-- First one branch for the lanes that decide for it, then the other for the others -/
def Group.choose (d : Fin k → Bool) (mask : Fin k → Bool) (c : Fin k → Config S)
    (left right : (Fin k → Bool) → (Fin k → Config S) → Group k S) : Group k S :=
  let g := left (fun i => mask i && d i) c
  let g' := right (fun i => mask i && !d i) g.config
  ⟨g.log ++ g'.log, fun i => if d i then g.signal i else g'.signal i, g'.config⟩

/-- Rounds of a loop for the lanes that have not left it, as long as there are any; at most so many -/
def roundsOf (body : (Fin k → Bool) → (Fin k → Config S) → Group k S) :
    Nat → (Fin k → Bool) → (Fin k → Config S) → Group k S
  | 0, _, c => ⟨[], fun _ => .running, c⟩
  | r + 1, mask, c =>
    if anyLane mask then
      let g := body mask c
      let again := fun i => mask i && (g.signal i == .next || g.signal i == .continues)
      let g' := roundsOf body r again g.config
      ⟨g.log ++ g'.log, fun i => if again i then g'.signal i else if g.signal i == .breaks then .next else g.signal i, g'.config⟩
    else ⟨[], fun _ => .next, c⟩

mutual
/-- Execution of a structured program for the lanes of a mask, with at most `r` rounds of each loop -/
def simt (M : Machine X S) (blocks : List (BasicBlock X)) (r : Nat) :
    ControlFlowChain → (Fin k → Bool) → (Fin k → Config S) → Group k S
  | .Atom id, mask, c => M.issue blocks id mask c
  | .Block chains, mask, c => simtAll M blocks r chains mask c
  | .Selection id left right _ _, mask, c =>
    (M.issue blocks id mask c).andThen mask fun mask c =>
      Group.choose (fun i => M.decides blocks id (c i)) mask c (fun mask c => simt M blocks r left mask c)
        (fun mask c => simt M blocks r right mask c)
  | .Loop id inner _ _, mask, c =>
    roundsOf (fun mask c => (M.issue blocks id mask c).andThen mask fun mask c => simt M blocks r inner mask c) r mask c
  | .Break, _, c => ⟨[], fun _ => .breaks, c⟩
  | .Continue, _, c => ⟨[], fun _ => .continues, c⟩
/-- The same for structured programs one after the other -/
def simtAll (M : Machine X S) (blocks : List (BasicBlock X)) (r : Nat) :
    List ControlFlowChain → (Fin k → Bool) → (Fin k → Config S) → Group k S
  | [], _, c => ⟨[], fun _ => .next, c⟩
  | chain :: chains, mask, c =>
    (simt M blocks r chain mask c).andThen mask fun mask c => simtAll M blocks r chains mask c
end

/-- The blocks issued for a lane -/
def Group.laneLog (g : Group k S) (i : Fin k) : List BlockId := (g.log.filter fun p => p.2 i).map (·.1)

end Magma.Spec
