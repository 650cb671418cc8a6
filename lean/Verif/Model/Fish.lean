import Verif.Model.Instr
/-
The instructions of ><> (/repo/src/FishStrategy.cpp) and *><> (/repo/src/StarfishStrategy.cpp). Values are `double`s stored by bit pattern in
the `int64_t` cells of the stacks; `Glob.flt` is their arithmetic. The member `selected` is 0 throughout: nothing assigns it.
-/
namespace Funge
open Exec

/-- The arithmetic of `double` (no counterpart in the source: it is the machine's). -/
def getFlt : Exec FloatOps := fun s => .ok (s.g.flt, s)

/-- `check_stack(top, n)` (/repo/src/util/include/FishUtil.h:23). -/
def checkTop (n : Nat) (k : Exec Err) : Exec Err := do
  let z ← sizeTop
  if z < n then pure .unspec else k

/-- `check_stack(second, n)` (/repo/src/util/include/FishUtil.h:23). -/
def checkSecond (n : Nat) (k : Exec Err) : Exec Err := do
  let z ← sizeSecond
  if z < n then pure .unspec else k

/-- `check_selected(n)` (/repo/src/util/include/FishUtil.h:14). -/
def checkSelected (n : Nat) (k : Exec Err) : Exec Err := do
  let z ← numStacks
  if n ≥ z then pure .unspec else k

/-- `push(TOP, n)` of an integer (/repo/src/FishStrategy.cpp:478-489). -/
def fishPush (n : Int) : Exec Unit := do
  let fl ← getFlt
  pushTop (fl.ofInt n)

/-- Conversion of a `double` to `int64_t` (e.g. /repo/src/FishStrategy.cpp:236); undefined if it does not fit. -/
def fishInt (x : Int) : Exec Int := do
  let fl ← getFlt
  match fl.toI64 x with
  | some i => pure i
  | none => fault .overflow

/-- `stack_t x = pop(TOP)` (e.g. /repo/src/FishStrategy.cpp:236). -/
def fishPopInt : Exec Int := do
  let x ← popTop
  fishInt x

/-- `size_t x = pop(TOP)` (/repo/src/FishStrategy.cpp:357, /repo/src/StarfishStrategy.cpp:96): undefined for a negative number. Simplification:
also a fault for numbers of 2^63 and above. -/
def fishPopSize : Exec Nat := do
  let i ← fishPopInt
  if i < 0 then fault .overflow else pure i.toNat

/-- Conversion of a `double` to `char` (/repo/src/StarfishStrategy.cpp:101, 113); undefined if it does not fit. -/
def fishPopChar : Exec Int := do
  let i ← fishPopInt
  if -128 ≤ i ∧ i ≤ 127 then pure i else fault .overflow

/-- `FishStrategy::popVector` (/repo/src/FishStrategy.cpp:468-476). -/
def fishPopVectorOn (pop : Exec Int) : Exec Vec :=
  popVectorOn (do
    let x ← pop
    fishInt x)

/-- `FishStrategy::pushVector` (/repo/src/FishStrategy.cpp:491-496). -/
def fishPushVectorOn (push : Int → Exec Unit) (v : Vec) : Exec Unit := do
  let fl ← getFlt
  pushVectorOn (fun x => push (fl.ofInt x)) v

/-- `instructionPush` (/repo/src/FishStrategy.cpp:100-104). -/
def fiPush (n : Int) : Exec Err := checkSelected 0 do
  fishPush n
  pure .none

/-- `instructionMirror1` (/repo/src/FishStrategy.cpp:126-133). -/
def fiMirror1 : Exec Err := do
  let v ← ipDelta
  setDelta ((v.set 1 (v.get 0)).set 0 (v.get 1))
  pure .none

/-- `instructionMirror2` (/repo/src/FishStrategy.cpp:135-142). -/
def fiMirror2 : Exec Err := do
  let v ← ipDelta
  setDelta ((v.set 1 (-v.get 0)).set 0 (-v.get 1))
  pure .none

/-- `instructionMirrorVert` (/repo/src/FishStrategy.cpp:144-149). -/
def fiMirrorVert : Exec Err := do
  let v ← ipDelta
  setDelta (v.set 0 (-v.get 0))
  pure .none

/-- `instructionMirrorHori` (/repo/src/FishStrategy.cpp:151-156). -/
def fiMirrorHori : Exec Err := do
  let v ← ipDelta
  setDelta (v.set 1 (-v.get 1))
  pure .none

/-- `instructionMirrorAll` (/repo/src/FishStrategy.cpp:158-164). -/
def fiMirrorAll : Exec Err := do
  let v ← ipDelta
  let w := v.set 0 (-v.get 0)
  setDelta (w.set 1 (-w.get 1))
  pure .none

/-- `instructionConditional` (/repo/src/FishStrategy.cpp:184-190). -/
def fiConditional : Exec Err := checkTop 1 do
  let x ← popTop
  let fl ← getFlt
  if fl.isZero x then ipNext else pure ()
  pure .none

/-- `instructionJump` (/repo/src/FishStrategy.cpp:192-197). -/
def fiJump : Exec Err := do
  let d ← getDims
  checkTop d do
    let v ← fishPopVectorOn popTop
    onIP (·.setPos v)
    pure .none

/-- The arithmetic and comparison instructions (/repo/src/FishStrategy.cpp:199-221, 245-267): pop `x`, then `y`, push `f y x`. -/
def fiBin (f : FloatOps → Int → Int → Int) : Exec Err := checkTop 2 do
  let x ← popTop
  let y ← popTop
  let fl ← getFlt
  pushTop (f fl y x)
  pure .none

/-- `instructionDiv` (/repo/src/FishStrategy.cpp:223-232). -/
def fiDiv : Exec Err := checkTop 2 do
  let x ← popTop
  let y ← popTop
  let fl ← getFlt
  if fl.isZero x then pure .unspec
  else do
    pushTop (fl.div y x)
    pure .none

/-- `instructionModu` (/repo/src/FishStrategy.cpp:234-243). -/
def fiModu : Exec Err := checkTop 2 do
  let x ← fishPopInt
  let y ← fishPopInt
  if x = 0 then pure .unspec
  else if y = i64Min ∧ x = -1 then fault .overflow
  else do
    fishPush (y.tmod x)
    pure .none

/-- `instructionDuplicate` (/repo/src/FishStrategy.cpp:274-280). -/
def fiDuplicate : Exec Err := checkTop 1 do
  let x ← popTop
  pushTop x
  pushTop x
  pure .none

/-- `instructionRemove` (/repo/src/FishStrategy.cpp:282-286). -/
def fiRemove : Exec Err := checkTop 1 do
  let _ ← popTop
  pure .none

/-- `instructionSwap2` (/repo/src/FishStrategy.cpp:288-295). -/
def fiSwap2 : Exec Err := checkTop 2 do
  let x ← popTop
  let y ← popTop
  pushTop x
  pushTop y
  pure .none

/-- `instructionSwap3` (/repo/src/FishStrategy.cpp:297-306). -/
def fiSwap3 : Exec Err := checkTop 3 do
  let x ← popTop
  let y ← popTop
  let z ← popTop
  pushTop x
  pushTop z
  pushTop y
  pure .none

/-- `instructionLength` (/repo/src/FishStrategy.cpp:308-312). -/
def fiLength : Exec Err := checkSelected 0 do
  let n ← sizeTop
  fishPush n
  pure .none

/-- `instructionShiftLeft` (/repo/src/FishStrategy.cpp:314-326); `temp[len-1]` is out of range for an empty stack. -/
def fiShiftLeft : Exec Err := checkSelected 0 do
  let len ← sizeTop
  let temp ← popN popTop len
  match temp.getLast? with
  | none => fault .outOfRange
  | some x =>
    pushAll pushTop temp.dropLast.reverse
    pushTop x
    pure .none

/-- `instructionShiftRight` (/repo/src/FishStrategy.cpp:328-340); `temp[0]` is out of range for an empty stack. -/
def fiShiftRight : Exec Err := checkSelected 0 do
  let len ← sizeTop
  let temp ← popN popTop len
  match temp with
  | [] => fault .outOfRange
  | x :: r =>
    pushTop x
    pushAll pushTop r.reverse
    pure .none

/-- `instructionReverse` (/repo/src/FishStrategy.cpp:342-353). -/
def fiReverse : Exec Err := checkSelected 0 do
  let len ← sizeTop
  let temp ← popN popTop len
  pushAll pushTop temp
  pure .none

/-- `instructionCreateStack` (/repo/src/FishStrategy.cpp:355-366). -/
def fiCreateStack : Exec Err := checkTop 1 do
  let x ← fishPopSize
  onStacks (·.insert 0)
  checkSecond x do
    moveN popSecond pushTop x
    modCur fun r => { r with regs := (false, 0) :: r.regs }
    pure .none

/-- `instructionRemoveStack` (/repo/src/FishStrategy.cpp:368-377): `while(size > 0)` pops exactly `size` values. `regs.pop()` on an
empty `std::stack` is undefined. -/
def fiRemoveStack : Exec Err := checkSelected 0 <| checkSelected 1 do
  let len ← sizeTop
  moveN popTop pushSecond len
  onStacks StackStack.pop
  let s ← get
  match s.cur.regs with
  | [] => fault .outOfRange
  | _ :: t =>
    modCur fun r => { r with regs := t }
    pure .none

/-- `instructionOutChar` (/repo/src/FishStrategy.cpp:379-384). -/
def fiOutChar : Exec Err := checkTop 1 do
  let x ← fishPopInt
  emit (.out [toChar x])
  pure .none

/-- `instructionOutInt` (/repo/src/FishStrategy.cpp:386-396). -/
def fiOutInt : Exec Err := checkTop 1 do
  let x ← popTop
  let fl ← getFlt
  let i ← fishInt x
  if fl.eq x (fl.ofInt i) then emit (.out (decimal i)) else emit (.out (fl.text x))
  pure .none

/-- `instructionIn` (/repo/src/FishStrategy.cpp:398-413). -/
def fiIn : Exec Err := do
  let s ← get
  let q ← (match s.cur.file with
    | none => getChar
    | some [] => pure none
    | some (c :: t) => do
      modCur fun r => { r with file := some t }
      pure (some c) : Exec (Option Int))
  checkSelected 0 do
    fishPush (q.getD (-1))
    pure .none

/-- `instructionGet` (/repo/src/FishStrategy.cpp:415-421). -/
def fiGet : Exec Err := do
  let d ← getDims
  checkTop d do
    let st ← ipStorage
    let v ← fishPopVectorOn popTop
    let x ← fieldGet (v.add st)
    fishPush x
    pure .none

/-- `instructionPut` (/repo/src/FishStrategy.cpp:423-429). -/
def fiPut : Exec Err := do
  let d ← getDims
  checkTop (d + 1) do
    let st ← ipStorage
    let v ← fishPopVectorOn popTop
    let x ← fishPopInt
    fieldPut (v.add st) x
    pure .none

/-- `instructionRegister` (/repo/src/FishStrategy.cpp:436-452). `regs.top()` of an empty `std::stack` is undefined. -/
def fiRegister : Exec Err := do
  let s ← get
  match s.cur.regs with
  | [] => fault .outOfRange
  | (true, _) :: t =>
    modCur fun r => { r with regs := (false, 0) :: t }
    pure .none
  | (false, _) :: t =>
    checkTop 1 do
      let x ← fishPopInt
      modCur fun r => { r with regs := (true, x) :: t }
      pure .none

/-! ### Starfish -/

/-- `StarfishStrategy::instructionFisherman` (/repo/src/StarfishStrategy.cpp:41-54). -/
def siFisherman : Exec Err := do
  let v ← ipDelta
  let s ← get
  if v.get 1 = 0 then
    if s.cur.starUp then do
      setDelta (Vec.ofList [0, 1])
      modCur fun r => { r with starUp := false }
    else do
      setDelta (Vec.ofList [0, -1])
      modCur fun r => { r with starUp := true }
  else setDelta s.cur.starCache
  pure .none

/-- `StarfishStrategy::instructionCall` (/repo/src/StarfishStrategy.cpp:56-64). -/
def siCall : Exec Err := do
  onStacks (·.insert 1)
  let p ← ipPos
  fishPushVectorOn pushSecond p
  let d ← getDims
  checkTop d do
    let v ← fishPopVectorOn popTop
    onIP (·.setPos v)
    pure .none

/-- `StarfishStrategy::instructionReturn` (/repo/src/StarfishStrategy.cpp:66-72). -/
def siReturn : Exec Err := do
  let d ← getDims
  checkSecond d do
    let v ← fishPopVectorOn popSecond
    onIP (·.setPos v)
    onStacks (·.remove 1)
    pure .none

/-- `StarfishStrategy::instructionDive` (/repo/src/StarfishStrategy.cpp:74-77). -/
def siDive : Exec Err := do
  universeSetMode modeDive
  pure .none

/-- `StarfishStrategy::instructionRise` (/repo/src/StarfishStrategy.cpp:79-82). -/
def siRise : Exec Err := do
  universeClearMode modeDive
  pure .none

/-- `stack.increment()` / `stack.decrement()` (/repo/src/StarfishStrategy.cpp:84-90). -/
def siSelect (f : StackStack → Err × StackStack) : Exec Err := fun s =>
  .ok ((f s.cur.ss).1, { s with cur := { s.cur with ss := (f s.cur.ss).2 } })

/-- `StarfishStrategy::instructionFile` (/repo/src/StarfishStrategy.cpp:92-122). A file that does not open reads as empty. -/
def siFile : Exec Err := do
  let c ← getCfg
  if c.filesystem then
    checkTop 1 do
      let x ← fishPopSize
      checkTop x do
        let s ← get
        match s.cur.file with
        | none =>
          let l ← popN fishPopChar x
          let str := l.reverse
          emit (.openRead (cstr str))
          let bytes ← askFile
          modCur fun r => { r with file := some (bytes.getD []), filepath := str }
          pure .none
        | some _ =>
          modCur fun r => { r with file := none }
          emit (.openWrite (cstr s.cur.filepath))
          let ok ← askFile
          let l ← popN fishPopChar x
          if ok.isSome then emit (.writeFile (cstr s.cur.filepath) l) else pure ()
          pure .none
  else pure .notavail

/-- `StarfishStrategy::instructionSleep` (/repo/src/StarfishStrategy.cpp:124-129). Simplification: the sleep itself, and the conversion of its
length, are not modelled. -/
def siSleep : Exec Err := checkTop 1 do
  let _ ← popTop
  pure .none

/-- `instructionHour`, `instructionMinute`, `instructionSecond` (/repo/src/StarfishStrategy.cpp:131-156): the environment answers. -/
def siTime : Exec Err := do
  let t ← ask
  checkSelected 0 do
    fishPush t
    pure .none

end Funge
