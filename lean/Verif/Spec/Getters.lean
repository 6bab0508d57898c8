import Verif.Model.Getters
/-!
# Specifications for C09, C10, C11
-/
namespace Pwtools.Spec
variable {N V : Type}

mutual
/-- `Val G init a r`: the value of attribute `a` is `r`, where attributes set initially keep
their value and any other attribute is what its getter returns when each attribute it asks
for has its value. No order of evaluation, no state. -/
inductive Val (G : N → Prog N V) (init : N → Option V) : N → Option V → Prop where
  | given {a v} : init a = some v → Val G init a (some v)
  | computed {a r} : init a = none → Comp G init (G a) r → Val G init a r
/-- The result of a getter body when every attribute has its `Val`. -/
inductive Comp (G : N → Prog N V) (init : N → Option V) : Prog N V → Option V → Prop where
  | ret {v} : Comp G init (.ret v) v
  | check {a k r out} : Val G init a r → Comp G init (k r) out → Comp G init (.check a k) out
end

/-- The getter body asks for attribute `b`. -/
inductive Asks (G : N → Prog N V) (init : N → Option V) : Prog N V → N → Prop where
  | here {a k} : Asks G init (.check a k) a
  | later {a k r b} : Val G init a r → Asks G init (k r) b → Asks G init (.check a k) b

/-- Attribute `a` is needed if the attributes in `want` are wanted. -/
inductive Need (G : N → Prog N V) (init : N → Option V) (want : List N) : N → Prop where
  | want {a} : a ∈ want → Need G init want a
  | dep {a b} : Need G init want a → init a = none → Asks G init (G a) b → Need G init want b

/-- Everything the body can ask for has rank below `n`. -/
inductive Below (rank : N → Nat) (n : Nat) : Prog N V → Prop where
  | ret {v} : Below rank n (.ret v)
  | check {a k} : rank a < n → (∀ r, Below rank n (k r)) → Below rank n (.check a k)

/-- The getters depend on each other acyclically: every getter only asks for attributes of
smaller rank. -/
def Acyclic (G : N → Prog N V) (rank : N → Nat) : Prop := ∀ a, Below rank (rank a) (G a)

/-- The clock readings belonging to one tag: every `t(tag)`, and a `pt(tag)` which finds the
clock running (odd number of readings). -/
def readings {Tag : Type} [DecidableEq Tag] (tag : Tag) : List Int → List (TimerOp Tag) → List Int
  | acc, [] => acc
  | acc, .t tg now :: ops => readings tag (if tg = tag then acc ++ [now] else acc) ops
  | acc, .pt tg now :: ops =>
    readings tag (if tg = tag ∧ acc.length % 2 = 1 then acc ++ [now] else acc) ops

/-- Stop minus start of the last start/stop pair. -/
def lastInterval (l : List Int) : Option Int :=
  match l.reverse with
  | stop :: start :: _ => some (stop - start)
  | _ => none

end Pwtools.Spec
