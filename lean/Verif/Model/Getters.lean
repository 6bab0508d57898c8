/-!
# Model of `base.FlexibleGetters`, `decorators.lazyprop`, `timer.TagTimer`
-/
namespace Pwtools

/-! ## FlexibleGetters (`src/pwtools/base.py`) -/

/-- The body of a getter as far as the mechanism is concerned (`base.py:47-62`): it returns
a value or `None`, or calls `self.check_set_attr(a)` and goes on depending on `self.a`.
Simplification: getters do not raise and do not assign attributes themselves. -/
inductive Prog (N V : Type) where
  | ret (v : Option V) : Prog N V
  | check (a : N) (k : Option V → Prog N V) : Prog N V

/-- The object: attributes (`none` is "missing or None") and, for the "executed once" claim,
the list of getters executed so far. -/
structure GSt (N V : Type) where
  attr : N → Option V
  log : List N

variable {N V : Type} [DecidableEq N]

/-- `setattr(self, attr, val)`. -/
def GSt.set (s : GSt N V) (a : N) (v : Option V) : GSt N V :=
  { s with attr := fun b => if b = a then v else s.attr b }

/-- `is_set_attr`, `base.py:190-206`. -/
def GSt.isSet (s : GSt N V) (a : N) : Bool := (s.attr a).isSome

/-- Run a getter body; `try_` is `try_set_attr`. `none` is the `RecursionError` of a too
deep call chain. -/
def runProg (try_ : N → GSt N V → Option (GSt N V)) : Prog N V → GSt N V → Option (Option V × GSt N V)
  | .ret v, s => some (v, s)
  | .check a k, s =>
    match try_ a s with
    | none => none
    | some s' => runProg try_ (k (s'.attr a)) s'

/-- `try_set_attr`, `base.py:215-231`, with `fuel` nested getter calls left. -/
def trySetAttr (G : N → Prog N V) : Nat → N → GSt N V → Option (GSt N V)
  | 0, a, s => if s.isSet a then some s else none
  | fuel + 1, a, s =>
    if s.isSet a then some s
    else
      match runProg (trySetAttr G fuel) (G a) { s with log := s.log ++ [a] } with
      | none => none
      | some (v, s') => some (s'.set a v)

/-- `try_set_attr_lst` and `set_all`, `base.py:139-143,233-235`. -/
def setAll (G : N → Prog N V) (fuel : Nat) : List N → GSt N V → Option (GSt N V)
  | [], s => some s
  | a :: as, s =>
    match trySetAttr G fuel a s with
    | none => none
    | some s' => setAll G fuel as s'

/-- `check_set_attr`, `base.py:237-262`. -/
def checkSetAttr (G : N → Prog N V) (fuel : Nat) (a : N) (s : GSt N V) : Option (Bool × GSt N V) :=
  match trySetAttr G fuel a s with
  | none => none
  | some s' => some (s'.isSet a, s')

/-- `check_set_attr_lst`, `base.py:264-267`. -/
def checkSetAttrLst (G : N → Prog N V) (fuel : Nat) (as : List N) (s : GSt N V) :
    Option (Bool × GSt N V) :=
  match setAll G fuel as s with
  | none => none
  | some s' => some (as.all s'.isSet, s')

/-- The name of the getter method, `base.py:227-231`. -/
def getterName (attr : List Char) : List Char :=
  if ['_'].isPrefixOf attr then "_get".toList ++ attr else "get_".toList ++ attr

/-! ## lazyprop (`src/pwtools/decorators.py:98-114`) -/

/-- One lazy property: the instance dictionaries (`cache`) and how often the decorated
function has been called per instance. -/
structure LazySt (I V : Type) where
  cache : I → Option V
  calls : I → Nat

/-- Access `obj.prop`, `decorators.py:109-114`. `lazyprop` has no `__set__`, so an entry in
the instance dictionary wins. `fget i n` is the outcome of the `n`-th call of the decorated
function on instance `i` (`none`: it raises). -/
def lazyGet {I V : Type} [DecidableEq I] (fget : I → Nat → Option V) (s : LazySt I V) (i : I) :
    Option V × LazySt I V :=
  match s.cache i with
  | some v => (some v, s)
  | none =>
    let r := fget i (s.calls i)
    let s1 := { s with calls := fun j => if j = i then s.calls i + 1 else s.calls j }
    match r with
    | none => (none, s1)
    | some v => (some v, { s1 with cache := fun j => if j = i then some v else s1.cache j })

/-- A history of accesses with their outcomes. -/
def lazyRun {I V : Type} [DecidableEq I] (fget : I → Nat → Option V) (s : LazySt I V) :
    List I → List (I × Option V) × LazySt I V
  | [] => ([], s)
  | i :: is =>
    let (r, s') := lazyGet fget s i
    let (rs, s'') := lazyRun fget s' is
    ((i, r) :: rs, s'')

/-! ## TagTimer (`src/pwtools/timer.py`) -/

/-- `time_ar_dict`: per tag the array `[val0, val1]`; `none` is a tag not yet seen. -/
abbrev TimerSt (Tag : Type) := Tag → Option (Option Int × Option Int)

/-- `self.time_ar_dict[tag] = val`. -/
def TimerSt.put {Tag : Type} [DecidableEq Tag] (s : TimerSt Tag) (tag : Tag)
    (v : Option Int × Option Int) : TimerSt Tag :=
  fun t => if t = tag then some v else s t

/-- `TagTimer.t`, `timer.py:50-91`; `now` is the clock reading. -/
def timerT {Tag : Type} [DecidableEq Tag] (s : TimerSt Tag) (tag : Tag) (now : Int) : TimerSt Tag :=
  let ar := (s tag).getD (none, none)
  match ar with
  | (none, b) => s.put tag (some now, b)
  | (some a, none) => s.put tag (some a, some now)
  | (some _, some _) => s.put tag (some now, none)

/-- `TagTimer.pt`, `timer.py:93-123`: the reported time difference, `none` for `ValueError`. -/
def timerPt {Tag : Type} [DecidableEq Tag] (s : TimerSt Tag) (tag : Tag) (now : Int) :
    Option Int × TimerSt Tag :=
  match s tag with
  | none => (none, s)
  | some (none, _) => (none, s)
  | some (some a, none) => (some (now - a), timerT s tag now)
  | some (some a, some b) => (some (b - a), s)

/-- A use of the timer. -/
inductive TimerOp (Tag : Type) where
  | t (tag : Tag) (now : Int)
  | pt (tag : Tag) (now : Int)

/-- Run a history; collects the reports of the `pt` calls with their tag. -/
def timerRun {Tag : Type} [DecidableEq Tag] (s : TimerSt Tag) :
    List (TimerOp Tag) → List (Tag × Option Int) × TimerSt Tag
  | [] => ([], s)
  | .t tag now :: ops => timerRun (timerT s tag now) ops
  | .pt tag now :: ops =>
    let (r, s') := timerPt s tag now
    let (rs, s'') := timerRun s' ops
    ((tag, r) :: rs, s'')

end Pwtools
