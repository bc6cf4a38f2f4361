/-!
# Model of the coefficients and the basis function numbers of elements and faces

kernel/Base/ElementBasisFunctions.{h,cpp}, kernel/Base/ElementData.{h,cpp}, the members of
kernel/Base/Element.{h,cpp} that connect the two, and the index conversions of
kernel/Base/Face.cpp.

`std::size_t` sums are `Nat` (no wrapping), coefficients are of any type with a zero. A failing
debug assertion, `std::vector::at` with an index that is too large (an exception) and
`assert_always` are all `none`. The release build does not evaluate the debug assertions; the
theorems are about calls that pass them. Reads through the `int` of `setPositions_` are without
overflow. Not modelled: user data, zones, element matrices and vectors, logging.
-/
namespace Verif.ElementData

/-- A `BasisFunctionSet`: what is asked of it here is `size()` and `getOrder()`. -/
structure BSet where
  size : Nat
  order : Nat
deriving DecidableEq

/-- ElementBasisFunctions.h:201-213. `positions[unknown][place]`, where `-1` is `none`. The
collection `sets_` is shared by all elements and passed to the functions separately; it is not the
null pointer, as the constructor of `Element` demands (Element.h:571). -/
structure EBF where
  positions : List (List (Option Nat))
deriving DecidableEq

namespace EBF

/-- ElementBasisFunctions.h:92-94 -/
def init (numberOfUnknowns : Nat) : EBF := ⟨List.replicate numberOfUnknowns []⟩

/-- ElementBasisFunctions.cpp:131-134 `clearBasisFunctionPosition`. -/
def clear (b : EBF) (unknown : Nat) : Option EBF :=
  if unknown < b.positions.length then some ⟨b.positions.set unknown []⟩ else none

/-- ElementBasisFunctions.cpp:142-145, on the vector of one unknown: grow with `-1` and store. -/
def place (l : List (Option Nat)) (place position : Nat) : List (Option Nat) :=
  (if l.length ≤ place then l ++ List.replicate (1 + place - l.length) none else l).set place
    (some position)

/-- ElementBasisFunctions.cpp:136-146 `registerBasisFunctionPosition`. -/
def register (sets : List BSet) (b : EBF) (unknown place position : Nat) : Option EBF :=
  match b.positions[unknown]? with
  | none => none
  | some l =>
    if position < sets.length then some ⟨b.positions.set unknown (EBF.place l place position)⟩
    else none

/-- ElementBasisFunctions.h:233-237 and cpp:82-87: the loop that adds the sizes of the registered
sets. -/
def sizes (sets : List BSet) : List (Option Nat) → Option Nat
  | [] => some 0
  | none :: l => sizes sets l
  | some pos :: l => do
    let s ← sets[pos]?
    let r ← sizes sets l
    some (s.size + r)

/-- ElementBasisFunctions.h:229-238 `getNumberOfBasisFunctions(unknown)`. -/
def number (sets : List BSet) (b : EBF) (unknown : Nat) : Option Nat :=
  match b.positions[unknown]? with
  | none => none
  | some l => sizes sets l

/-- ElementBasisFunctions.h:240-252 `getNumberOfBasisFunctions()`: without unknowns `0` with a
warning; otherwise all unknowns must have the same number. -/
def numberLegacy (sets : List BSet) (b : EBF) : Option Nat :=
  if b.positions.length = 0 then some 0 else
  match number sets b 0 with
  | none => none
  | some dofs =>
    if (List.range b.positions.length).all fun i => number sets b i == some dofs then some dofs
    else none

/-- ElementBasisFunctions.h:255-262 `getNumberOfLocalBasisFunctions(unknown)`. -/
def localNumber (sets : List BSet) (b : EBF) (unknown : Nat) : Option Nat :=
  match b.positions[unknown]? with
  | none => none
  | some [] => some 0
  | some (none :: _) => some 0
  | some (some pos :: _) =>
    match sets[pos]? with
    | none => none
    | some s => some s.size

/-- ElementBasisFunctions.h:278-285 `getTotalLocalNumberOfBasisFunctions`: the loop from `i` with
`n` unknowns to go. -/
def totalLocalFrom (sets : List BSet) (b : EBF) : Nat → Nat → Option Nat
  | 0, _ => some 0
  | n + 1, i => do
    let k ← localNumber sets b i
    let r ← totalLocalFrom sets b n (i + 1)
    some (k + r)

/-- ElementBasisFunctions.h:278-285 -/
def totalLocal (sets : List BSet) (b : EBF) : Option Nat :=
  totalLocalFrom sets b b.positions.length 0

/-- ElementBasisFunctions.cpp:73-89 `getBasisFunctionOffset`. -/
def offset (sets : List BSet) (b : EBF) (unknown place : Nat) : Option Nat :=
  match b.positions[unknown]? with
  | none => none
  | some l => if l.length ≤ place then some 0 else sizes sets (l.take place)

/-- ElementBasisFunctions.cpp:104-112, the loop: position of the set and index in the set. -/
def find (sets : List BSet) : List (Option Nat) → Nat → Option (Nat × Nat)
  | [], _ => none
  | none :: l, index => find sets l index
  | some pos :: l, index =>
    match sets[pos]? with
    | none => none
    | some s => if index < s.size then some (pos, index) else find sets l (index - s.size)

/-- ElementBasisFunctions.cpp:91-117 `getBasisFunctionSetAndIndex(index, unknown)`. -/
def lookup (sets : List BSet) (b : EBF) (index unknown : Nat) : Option (Nat × Nat) :=
  match b.positions[unknown]? with
  | none => none
  | some l => find sets l index

/-- ElementBasisFunctions.cpp:95-101, without an unknown. -/
def lookupLegacy (sets : List BSet) (b : EBF) (index : Nat) : Option (Nat × Nat) :=
  match numberLegacy sets b with
  | none => none
  | some n => if index < n then lookup sets b index 0 else none

/-- ElementBasisFunctions.cpp:119-129 `getMaximumOrder`: the loop over the places. -/
def maxOrderIn (sets : List BSet) : List (Option Nat) → Nat → Option Nat
  | [], o => some o
  | none :: l, o => maxOrderIn sets l o
  | some pos :: l, o =>
    match sets[pos]? with
    | none => none
    | some s => maxOrderIn sets l (max o s.order)

/-- ElementBasisFunctions.cpp:119-129 -/
def maxOrder (sets : List BSet) (b : EBF) : Option Nat :=
  b.positions.foldlM (fun o l => maxOrderIn sets l o) 0

end EBF

variable {α : Type}

/-- MiddleSizeVector.cpp:83-90 `resize`: cut off, or fill up with zeros. -/
def resize [Zero α] (v : List α) (n : Nat) : List α := v.take n ++ List.replicate (n - v.length) 0

/-- ElementData.h:231-255. `counts` is `numberOfBasisFunctions_`, of the same length as
`numberOfUnknowns_`; `levels` is `timeLevelDataVectors_`, of length `timeLevels_`; `vectors` is
`timeIntegrationVectors_`. -/
structure Data (α : Type) where
  counts : List Nat
  levels : List (List α)
  vectors : List (List α)
deriving DecidableEq

namespace Data

/-- ElementData.cpp:51-68; the vectors of the time levels are empty. -/
def init (timeLevels numberOfUnknowns : Nat) : Data α :=
  ⟨List.replicate numberOfUnknowns 0, List.replicate timeLevels [], []⟩

/-- ElementData.cpp:185-191 `getTotalNumberOfBasisFunctions`. -/
def total (d : Data α) : Nat := d.counts.foldl (· + ·) 0

/-- ElementData.h:219-222, the loop. -/
def offset (d : Data α) (unknown : Nat) : Nat := (d.counts.take unknown).foldl (· + ·) 0

/-- ElementData.h:209-224 `convertToSingleIndex`. -/
def single (d : Data α) (basisFunction unknown : Nat) : Option Nat :=
  match d.counts[unknown]? with
  | none => none
  | some n => if basisFunction < n then some (d.offset unknown + basisFunction) else none

section
variable [Zero α]

/-- `if (v.size() != getTotalNumberOfBasisFunctions()) v.resize(…)`, as in ElementData.cpp:206-210. -/
def fit (d : Data α) (v : List α) : List α :=
  if v.length ≠ d.total then resize v d.total else v

/-- ElementData.cpp:142-149 `setNumberOfBasisFunctions(number)`. -/
def setNumberAll (d : Data α) (number : Nat) : Data α :=
  let d' := { d with counts := d.counts.map fun _ => number }
  { d' with vectors := d'.vectors.map fun v => resize v d'.total }

/-- ElementData.cpp:151-157 `setNumberOfBasisFunctions(number, unknown)`. -/
def setNumber (d : Data α) (number unknown : Nat) : Option (Data α) :=
  if unknown < d.counts.length then
    let d' := { d with counts := d.counts.set unknown number }
    some { d' with vectors := d'.vectors.map fun v => resize v d'.total }
  else none

/-- `v(i) = val` with the assertion of MiddleSizeVector.h:128-133. -/
def write (v : List α) (i : Nat) (val : α) : Option (List α) :=
  if i < v.length then some (v.set i val) else none

/-- ElementData.cpp:197-213 `setData`. -/
def setData (d : Data α) (timeLevel unknown basisFunction : Nat) (val : α) : Option (Data α) := do
  let v ← d.levels[timeLevel]?
  let i ← d.single basisFunction unknown
  let w ← write (d.fit v) i val
  some { d with levels := d.levels.set timeLevel w }

/-- ElementData.cpp:218-231 `getData`. -/
def getData (d : Data α) (timeLevel unknown basisFunction : Nat) : Option α := do
  let v ← d.levels[timeLevel]?
  let i ← d.single basisFunction unknown
  if v.length = d.total then v[i]? else none

/-- ElementData.cpp:253-257 and 459-464, the loop from basis function `iB` on. -/
def writeAll (d : Data α) (unknown : Nat) : List α → Nat → List α → Option (List α)
  | [], _, v => some v
  | x :: val, iB, v => do
    let i ← d.single iB unknown
    let w ← write v i x
    writeAll d unknown val (iB + 1) w

/-- ElementData.cpp:238-258 `setTimeLevelData(timeLevel, unknown, val)`. -/
def setTimeLevelData (d : Data α) (timeLevel unknown : Nat) (val : List α) : Option (Data α) := do
  let v ← d.levels[timeLevel]?
  let n ← d.counts[unknown]?
  if val.length = n then
    let w ← writeAll d unknown val 0 (d.fit v)
    some { d with levels := d.levels.set timeLevel w }
  else none

/-- ElementData.cpp:260-274 `setTimeLevelData(timeLevel, val)`: all unknowns must have as many basis
functions as `val` has entries, and the first unknown is written. -/
def setTimeLevelDataFirst (d : Data α) (timeLevel : Nat) (val : List α) : Option (Data α) :=
  if d.counts.all (· == val.length) then d.setTimeLevelData timeLevel 0 val else none

/-- ElementData.cpp:285-291 and 419-426, the loop over `n` basis functions from `iB` on. -/
def readAll (d : Data α) (unknown : Nat) (v : List α) : Nat → Nat → Option (List α)
  | 0, _ => some []
  | n + 1, iB => do
    let i ← d.single iB unknown
    let x ← v[i]?
    let r ← readAll d unknown v n (iB + 1)
    some (x :: r)

/-- ElementData.cpp:278-293 `getTimeLevelData(timeLevel, unknown)`. -/
def getTimeLevelData (d : Data α) (timeLevel unknown : Nat) : Option (List α) := do
  let v ← d.levels[timeLevel]?
  let n ← d.counts[unknown]?
  readAll d unknown v n 0

/-- ElementData.cpp:298-314 `setTimeLevelDataVector`. -/
def setTimeLevelDataVector (d : Data α) (timeLevel : Nat) (val : List α) : Option (Data α) :=
  if timeLevel < d.levels.length ∧ val.length = d.total then
    some { d with levels := d.levels.set timeLevel val }
  else none

/-- ElementData.cpp:318-327 `getTimeLevelDataVector` of a constant element. -/
def getTimeLevelDataVector (d : Data α) (timeLevel : Nat) : Option (List α) := do
  let v ← d.levels[timeLevel]?
  if v.length = d.total then some v else none

/-- ElementData.cpp:329-340: `getTimeLevelDataVector(timeLevel)(i) = val` on an element that is not
constant, which makes the vector fit first. -/
def writeLevel (d : Data α) (timeLevel i : Nat) (val : α) : Option (Data α) := do
  let v ← d.levels[timeLevel]?
  let w ← write (d.fit v) i val
  some { d with levels := d.levels.set timeLevel w }

/-- ElementData.h:125-130 `setNumberOfTimeIntegrationVectors`. -/
def setNumberOfVectors (d : Data α) (n : Nat) : Data α :=
  { d with vectors := d.vectors.take n ++
      List.replicate (n - d.vectors.length) (List.replicate d.total 0) }

/-- ElementData.cpp:342-372 `getTimeIntegrationVector`. -/
def getVector (d : Data α) (id : Nat) : Option (List α) := do
  let v ← d.vectors[id]?
  if v.length = d.total then some v else none

/-- ElementData.cpp:374-393 `setTimeIntegrationVector`. -/
def setVector (d : Data α) (id : Nat) (val : List α) : Option (Data α) :=
  if id < d.vectors.length ∧ val.length = d.total then
    some { d with vectors := d.vectors.set id val }
  else none

/-- ElementData.cpp:400-428 `getTimeIntegrationSubvector`. -/
def getSubvector (d : Data α) (id unknown : Nat) : Option (List α) := do
  let n ← d.counts[unknown]?
  let v ← d.vectors[id]?
  if v.length = d.total then readAll d unknown v n 0 else none

/-- ElementData.cpp:437-465 `setTimeIntegrationSubvector`. -/
def setSubvector (d : Data α) (id unknown : Nat) (val : List α) : Option (Data α) := do
  let v ← d.vectors[id]?
  let n ← d.counts[unknown]?
  if val.length = n then
    let w ← writeAll d unknown val 0 (d.fit v)
    some { d with vectors := d.vectors.set id w }
  else none

/-- ElementData.cpp:467-484 `getTimeIntegrationData`. -/
def getVectorData (d : Data α) (id unknown basisFunction : Nat) : Option α := do
  let v ← d.vectors[id]?
  let i ← d.single basisFunction unknown
  if v.length = d.total then v[i]? else none

/-- ElementData.cpp:486-504 `setTimeIntegrationData`. -/
def setVectorData (d : Data α) (id unknown basisFunction : Nat) (val : α) : Option (Data α) := do
  let v ← d.vectors[id]?
  let i ← d.single basisFunction unknown
  let w ← write (d.fit v) i val
  some { d with vectors := d.vectors.set id w }

end
end Data

/-- An `Element`: its coefficients, its basis functions and the number of its faces, edges and nodes
(Element.h:505-545; the geometry and the neighbours are not needed). -/
structure Elem (α : Type) where
  data : Data α
  basis : EBF
  faces : Nat
  edges : Nat
  nodes : Nat
deriving DecidableEq

namespace Elem
variable [Zero α]

/-- Element.h:554-592, the constructor. -/
def init (timeLevels numberOfUnknowns faces edges nodes : Nat) : Elem α :=
  ⟨Data.init timeLevels numberOfUnknowns, EBF.init numberOfUnknowns, faces, edges, nodes⟩

/-- Element.cpp:93-95, 107-109, 121-123 and 136-138: count again and tell the coefficients. -/
def recount (sets : List BSet) (e : Elem α) (unknown : Nat) : Option (Elem α) := do
  let n ← e.basis.number sets unknown
  let d ← e.data.setNumber n unknown
  some { e with data := d }

/-- Element.cpp:89-98 `setDefaultBasisFunctionSet`; the quadrature rule is not modelled. -/
def setDefault (sets : List BSet) (e : Elem α) (position unknown : Nat) : Option (Elem α) := do
  let b ← e.basis.clear unknown
  let b ← b.register sets unknown 0 position
  recount sets { e with basis := b } unknown

/-- Element.cpp:100-110 `setFaceBasisFunctionSet`. -/
def setFace (sets : List BSet) (e : Elem α) (position localFace unknown : Nat) :
    Option (Elem α) :=
  if localFace < e.faces then do
    let b ← e.basis.register sets unknown (1 + localFace) position
    recount sets { e with basis := b } unknown
  else none

/-- Element.cpp:112-124 `setEdgeBasisFunctionSet`. -/
def setEdge (sets : List BSet) (e : Elem α) (position localEdge unknown : Nat) :
    Option (Elem α) :=
  if localEdge < e.edges then do
    let b ← e.basis.register sets unknown (1 + e.faces + localEdge) position
    recount sets { e with basis := b } unknown
  else none

/-- Element.cpp:126-139 `setVertexBasisFunctionSet`. -/
def setVertex (sets : List BSet) (e : Elem α) (position localNode unknown : Nat) :
    Option (Elem α) :=
  if localNode < e.nodes then do
    let b ← e.basis.register sets unknown (1 + e.faces + e.edges + localNode) position
    recount sets { e with basis := b } unknown
  else none

end Elem

/-- kernel/Base/Side.h -/
inductive Side where
  | left
  | right
deriving DecidableEq

/-- A face: its left element and, when it is internal, its right element. -/
structure Face (α : Type) where
  left : Elem α
  right : Option (Elem α)

namespace Face
variable [Zero α]

/-- Face.cpp:214-249 `convertToSingleIndex`. -/
def single (sets : List BSet) (f : Face α) (side : Side) (basisFunction unknown : Nat) :
    Option Nat :=
  if unknown < f.left.data.counts.length then
    match side with
    | .left => f.left.data.single basisFunction unknown
    | .right =>
      match f.right with
      | none => none
      | some r => do
        let i ← r.data.single basisFunction unknown
        let n ← f.left.basis.totalLocal sets
        some (n + i)
  else none

/-- `faceBasisFunctionId < nDOFLeft + (isInternal() ? … : 0)`, Face.cpp:257-262. -/
def below (f : Face α) (i : Nat) : Bool :=
  i < f.left.data.total + (match f.right with | none => 0 | some r => r.data.total)

/-- Face.cpp:251-272 `getSide`. -/
def getSide (f : Face α) (i : Nat) : Option Side :=
  if i < f.left.data.total then some .left
  else if f.below i then some .right else none

/-- Face.cpp:274-295 `getElementBasisFunctionId`. -/
def getElementId (f : Face α) (i : Nat) : Option Nat :=
  if i < f.left.data.total then some i
  else if f.below i then some (i - f.left.data.total) else none

/-- Face.cpp:178-186 `getNumberOfBasisFunctions(unknown)`. -/
def number (f : Face α) (unknown : Nat) : Option Nat := do
  let l ← f.left.data.counts[unknown]?
  match f.right with
  | none => some l
  | some r => do
    let k ← r.data.counts[unknown]?
    some (l + k)

/-- Face.cpp:190-209 `getTimeIntegrationVector(id, unknown)`: both parts one after the other. The
loop copies `number - numberLeft` entries of the right part. -/
def getVector (f : Face α) (id unknown : Nat) : Option (List α) := do
  let l ← f.left.data.getSubvector id unknown
  match f.right with
  | none => some l
  | some r => do
    let n ← f.number unknown
    let k ← f.left.data.counts[unknown]?
    let m ← r.data.getSubvector id unknown
    if n - k ≤ m.length then some ((resize l n).take k ++ m.take (n - k)) else none

end Face
end Verif.ElementData
