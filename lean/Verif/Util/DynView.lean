import Verif.Basic

/-!
# `dynamic_string_view`

A view that may own its text, include/arg_router/utility/dynamic_string_view.hpp. Objects are
modelled with identity, because what can go wrong is a view into a string that has moved.
-/

namespace ArgRouter

/-- The name of an object: a variable of the program, or the by-value parameter of an operator.
utility/dynamic_string_view.hpp:81, 211. -/
inductive ObjId where
  | var (n : Nat)
  | param
  deriving DecidableEq, Repr

/-- A `std::string_view`: into memory that outlives the program (a literal, `argv`), or the first
`len` characters of the string owned by object `owner` at the moment its buffer had version
`version`. utility/dynamic_string_view.hpp:187. -/
inductive View where
  | ext (text : Bytes)
  | own (owner : ObjId) (version len : Nat)
  deriving DecidableEq, Repr

/-- `dynamic_string_view`, dynamic_string_view.hpp:19-189. `version` counts the operations on `str_`
that invalidate pointers into it ([string.require]: anything but reading; swapping strings with the
small string optimisation too). -/
structure Dsv where
  view : View
  str : Bytes
  version : Nat
  deriving DecidableEq, Repr

/-- The live objects. Model only: objects of utility/dynamic_string_view.hpp:19-189. -/
abbrev DsvHeap := ObjId → Option Dsv

/-- Bind `i` to `o`. Model only: an object of utility/dynamic_string_view.hpp:19-189 is constructed
or changed. -/
def DsvHeap.put (h : DsvHeap) (i : ObjId) (o : Option Dsv) : DsvHeap := fun j => if j = i then o else h j

/-- The text seen through a view; `none` when the view dangles. Reading an empty view reads no
memory. Any use of `view_`, utility/dynamic_string_view.hpp:104-162. -/
def View.read (h : DsvHeap) : View → Option Bytes
  | .ext t => some t
  | .own i v n =>
    if n = 0 then some []
    else match h i with
      | some o => if o.version = v ∧ n ≤ o.str.length then some (o.str.take n) else none
      | none => none

/-- `update_view`, utility/dynamic_string_view.hpp:185. -/
def Dsv.updateView (i : ObjId) (o : Dsv) : Dsv := { o with view := .own i o.version o.str.length }

/-- Modify `str_`. utility/dynamic_string_view.hpp:94, 137, 146, 174. -/
def Dsv.setStr (o : Dsv) (s : Bytes) : Dsv := { o with str := s, version := o.version + 1 }

/-- The constructor from a view or a literal, utility/dynamic_string_view.hpp:36-44. -/
def dsvOfView (t : Bytes) : Dsv := ⟨.ext t, [], 0⟩

/-- The constructor from an rvalue string, utility/dynamic_string_view.hpp:52. -/
def dsvOfString (i : ObjId) (s : Bytes) : Dsv := Dsv.updateView i ⟨.ext [], s, 0⟩

/-- The copy constructor, utility/dynamic_string_view.hpp:60-65. -/
def dsvCopy (i : ObjId) (other : Dsv) : Dsv :=
  let o : Dsv := ⟨other.view, other.str, 0⟩
  if !o.str.isEmpty then o.updateView i else o

/-- `swap`, utility/dynamic_string_view.hpp:169-182, of two different objects. -/
def dsvSwap (i j : ObjId) (a b : Dsv) : Dsv × Dsv :=
  let a' : Dsv := ⟨b.view, b.str, a.version + 1⟩
  let b' : Dsv := ⟨a.view, a.str, b.version + 1⟩
  (if !a'.str.isEmpty then a'.updateView i else a',
   if !b'.str.isEmpty then b'.updateView j else b')

/-- `convert_to_internal_storage`, utility/dynamic_string_view.hpp:91-97. Reading a dangling view is
undefined behaviour. -/
def dsvConvert (h : DsvHeap) (i : ObjId) (o : Dsv) : Out Dsv :=
  if o.str.isEmpty then
    match o.view.read h with
    | some t => .ok ((o.setStr t).updateView i)
    | none => .ub
  else .ok o

/-- `operator+=` for strings, views and characters, utility/dynamic_string_view.hpp:132-141. -/
def dsvAppend (h : DsvHeap) (i : ObjId) (o : Dsv) (t : Bytes) : Out Dsv := do
  let o ← dsvConvert h i o
  .ok ((o.setStr (o.str ++ t)).updateView i)

/-- An operation of a program using `dynamic_string_view`s. utility/dynamic_string_view.hpp:36-182,
210-215. -/
inductive DsvOp where
  /-- `dynamic_string_view i{view}`, also for a literal -/
  | ofView (i : Nat) (t : Bytes)
  /-- `dynamic_string_view i{std::move(string)}` -/
  | ofString (i : Nat) (s : Bytes)
  /-- `dynamic_string_view i{j}` -/
  | copy (i j : Nat)
  /-- `dynamic_string_view i{std::move(j)}` -/
  | move (i j : Nat)
  /-- `i = j` -/
  | assign (i j : Nat)
  /-- `i = std::move(j)` -/
  | assignMove (i j : Nat)
  /-- `i.convert_to_internal_storage()` -/
  | convert (i : Nat)
  /-- `i += text` -/
  | append (i : Nat) (t : Bytes)
  /-- `i += j` -/
  | appendView (i j : Nat)
  /-- `dynamic_string_view i{j + text}` -/
  | plus (i j : Nat) (t : Bytes)
  /-- the end of the lifetime of `i` -/
  | destroy (i : Nat)
  deriving DecidableEq, Repr

/-- Look up a live object; using a dead one is the program's mistake and not modelled (`none`). Model
only: the objects of utility/dynamic_string_view.hpp:19-189. -/
def DsvHeap.get (h : DsvHeap) (i : Nat) : Option Dsv := h (.var i)

/-- Run an operation. `none`: the program uses an object that is not alive or declares one that is (a
mistake of the program). utility/dynamic_string_view.hpp:36-182, 210-215. -/
def DsvOp.run (h : DsvHeap) : DsvOp → Option (Out DsvHeap)
  | .ofView i t =>
    match h.get i with
    | some _ => none
    | none => some (.ok (h.put (.var i) (some (dsvOfView t))))
  | .ofString i s =>
    match h.get i with
    | some _ => none
    | none => some (.ok (h.put (.var i) (some (dsvOfString (.var i) s))))
  | .copy i j =>
    match h.get i, h.get j with
    | none, some o => some (.ok (h.put (.var i) (some (dsvCopy (.var i) o))))
    | _, _ => none
  | .move i j =>
    -- 71-74: a default constructed object is swapped with the source
    match h.get i, h.get j with
    | none, some o =>
      let (a, c) := dsvSwap (.var i) (.var j) (dsvOfView []) o
      some (.ok ((h.put (.var i) (some a)).put (.var j) (some c)))
    | _, _ => none
  | .assign i j =>
    -- 81-85: the by-value parameter is copy constructed, swapped and destroyed
    match h.get i, h.get j with
    | some o, some src =>
      let (a, _) := dsvSwap (.var i) .param o (dsvCopy .param src)
      some (.ok (h.put (.var i) (some a)))
    | _, _ => none
  | .assignMove i j =>
    -- 81-85: the by-value parameter is move constructed, swapped and destroyed
    match h.get i, h.get j with
    | some _, some src =>
      let (p, src') := dsvSwap .param (.var j) (dsvOfView []) src
      let h := h.put (.var j) (some src')
      match h.get i with
      | some o =>
        let (a, _) := dsvSwap (.var i) .param o p
        some (.ok (h.put (.var i) (some a)))
      | none => none
    | _, _ => none
  | .convert i =>
    match h.get i with
    | some o => some ((dsvConvert h (.var i) o).bind fun o => .ok (h.put (.var i) (some o)))
    | none => none
  | .append i t =>
    match h.get i with
    | some o => some ((dsvAppend h (.var i) o t).bind fun o => .ok (h.put (.var i) (some o)))
    | none => none
  | .appendView i j =>
    -- 143-150: the view of `other` is read after this object has been converted
    match h.get i, h.get j with
    | some o, some _ => some do
      let o ← dsvConvert h (.var i) o
      let h := h.put (.var i) (some o)
      match h.get j with
      | some other =>
        match other.view.read h with
        | some t =>
          let o := (o.setStr (o.str ++ t)).updateView (.var i)
          .ok (h.put (.var i) (some o))
        | none => .ub
      | none => .ub
    | _, _ => none
  | .plus i j t =>
    -- 210-215: the parameter is a copy, it is appended to and the result is move constructed
    match h.get i, h.get j with
    | none, some src => some do
      let p := dsvCopy .param src
      let p ← dsvAppend (h.put .param (some p)) .param p t
      let (a, _) := dsvSwap (.var i) .param (dsvOfView []) p
      .ok (h.put (.var i) (some a))
    | _, _ => none
  | .destroy i =>
    match h.get i with
    | some _ => some (.ok (h.put (.var i) none))
    | none => none

/-- Run a program. utility/dynamic_string_view.hpp:36-215. -/
def runDsv (h : DsvHeap) : List DsvOp → Option (Out DsvHeap)
  | [] => some (.ok h)
  | op :: ops =>
    match op.run h with
    | some (.ok h') => runDsv h' ops
    | some (.throw e) => some (.throw e)
    | some .foreign => some .foreign
    | some .ub => some .ub
    | some .diverge => some .diverge
    | none => none

/-- The text seen through object `i` (`operator std::string_view`,
utility/dynamic_string_view.hpp:104); `none`: no such object or a dangling view. -/
def dsvText (h : DsvHeap) (i : Nat) : Option Bytes := (h.get i).bind fun o => o.view.read h

end ArgRouter
