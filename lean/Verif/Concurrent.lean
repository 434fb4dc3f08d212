import Verif.Layers

/-
Model of calls of convolution layers that overlap in time, as in a program with several threads or in a server.
The unit of execution is one access to an attribute of a layer, or one computation on local variables; the threads take turns in
any order. (Python's global interpreter lock guarantees that accesses to attributes are atomic, and nothing more.)
-/

namespace GroCo
open Tensor

variable {α : Type}

/-- the attributes named in `backup_and_restore(("kernel", "bias", "filters"))` (conv2d.py:59, conv3d.py:59,
conv2d_transpose.py:57, conv3d_transpose.py:63) -/
structure Attrs (α : Type) where
  kernel : Option (Tensor α)
  bias : Option (Tensor α)
  filters : Nat

def GroupConv.attrs (l : GroupConv α) : Attrs α := ⟨l.kernel, l.bias, l.filters⟩

def GroupConv.withAttrs (l : GroupConv α) (a : Attrs α) : GroupConv α :=
  { l with kernel := a.kernel, bias := a.bias, filters := a.filters }

/-- A call in progress with its local variables: `s` is the backup, `v` what `prepare_call` returned, `x` the prepared input,
`y` the result, the others are attributes read so far. -/
inductive CallState (α : Type) where
  | start
  /-- `Layer.__call__` has checked the input -/
  | checked
  /-- misc.py:8, the attributes are read one after the other -/
  | saving1 (k : Option (Tensor α))
  | saving2 (k b : Option (Tensor α))
  | saved (s : Attrs α)
  /-- conv2d.py:62, the arguments of `prepare_call` are read -/
  | reading1 (s : Attrs α) (k : Option (Tensor α))
  | reading2 (s : Attrs α) (k b : Option (Tensor α))
  | read (s a : Attrs α)
  /-- conv2d.py:61, the attributes are assigned one after the other -/
  | prepared (s v : Attrs α) (x : Tensor α)
  | writing1 (s v : Attrs α) (x : Tensor α)
  | writing2 (s v : Attrs α) (x : Tensor α)
  | written (s : Attrs α) (x : Tensor α)
  /-- `super().call` (BaseConv.call, BaseConvTranspose.call) reads kernel, filters and bias in this order -/
  | inside1 (s : Attrs α) (x : Tensor α) (k : Option (Tensor α))
  | inside2 (s : Attrs α) (x : Tensor α) (k : Option (Tensor α)) (f : Nat)
  | inside3 (s : Attrs α) (x : Tensor α) (a : Attrs α)
  /-- misc.py:10-11, the attributes are restored one after the other -/
  | returned (s : Attrs α) (y : Tensor α)
  | restoring1 (s : Attrs α) (y : Tensor α)
  | restoring2 (s : Attrs α) (y : Tensor α)
  | done (r : Res (Tensor α))

/-- one step of a call `l(x)`, given and returning the present attributes of `l` -/
def CallState.step [Semiring α] (l : GroupConv α) (x : Tensor α) : CallState α → Attrs α → CallState α × Attrs α
  | .start, a =>
    match l.checkInput x with
    | .error e => (.done (.error e), a)
    | .ok _ => (.checked, a)
  | .checked, a => (.saving1 a.kernel, a)
  | .saving1 k, a => (.saving2 k a.bias, a)
  | .saving2 k b, a => (.saved ⟨k, b, a.filters⟩, a)
  | .saved s, a => (.reading1 s a.kernel, a)
  | .reading1 s k, a => (.reading2 s k a.bias, a)
  | .reading2 s k b, a => (.read s ⟨k, b, a.filters⟩, a)
  | .read s r, a =>
    match r.kernel with
    | none => (.done (.error .attribute), a)
    | some k =>
      match l.transforms.prepareCall k r.bias r.filters x with
      | .error e => (.done (.error e), a)
      | .ok (k, b, f, x) => (.prepared s ⟨some k, b, f⟩ x, a)
  | .prepared s v x, a => (.writing1 s v x, { a with kernel := v.kernel })
  | .writing1 s v x, a => (.writing2 s v x, { a with bias := v.bias })
  | .writing2 s v x, a => (.written s x, { a with filters := v.filters })
  | .written s x, a => (.inside1 s x a.kernel, a)
  | .inside1 s x k, a => (.inside2 s x k a.filters, a)
  | .inside2 s x k f, a => (.inside3 s x ⟨k, a.bias, f⟩, a)
  | .inside3 s x r, a =>
    match (do
        let y ← (l.withAttrs r).superCall x
        l.transforms.restoreGroupAxis y : Res (Tensor α)) with
    | .error e => (.done (.error e), a)
    | .ok y => (.returned s y, a)
  | .returned s y, a => (.restoring1 s y, { a with kernel := s.kernel })
  | .restoring1 s y, a => (.restoring2 s y, { a with bias := s.bias })
  | .restoring2 s y, a => (.done (.ok y), { a with filters := s.filters })
  | .done r, a => (.done r, a)

/-- the call has begun and is not finished -/
def CallState.Active : CallState α → Prop
  | .start => False
  | .done _ => False
  | _ => True

/-- A call to be made: which layer is called and on what. -/
structure Job (α : Type) where
  layer : Nat
  input : Tensor α

/-- The state of a program: the attributes of its layers and the progress of its calls. -/
structure World (α : Type) where
  attrs : Nat → Attrs α
  calls : Nat → CallState α

/-- the layers as they are built, no call begun -/
def World.initial (layers : Nat → GroupConv α) : World α := ⟨fun i => (layers i).attrs, fun _ => .start⟩

/-- the thread of call `j` does one step -/
def World.step [Semiring α] (layers : Nat → GroupConv α) (jobs : Nat → Job α) (w : World α) (j : Nat) : World α :=
  let i := (jobs j).layer
  let r := (w.calls j).step (layers i) (jobs j).input (w.attrs i)
  ⟨fun k => if k = i then r.2 else w.attrs k, fun k => if k = j then r.1 else w.calls k⟩

/-- The threads take turns in the order of `schedule`. -/
def World.run [Semiring α] (layers : Nat → GroupConv α) (jobs : Nat → Job α) (schedule : List Nat) : World α :=
  schedule.foldl (World.step layers jobs) (World.initial layers)

end GroCo
