import Verif.Model.FastGraph
import Mathlib.Data.List.Forall2
import Mathlib.Tactic.Ring
/-!
# What the graph of a SubDyn or HydroDyn file says
-/
namespace Verif.FastGraph
open Verif.Py

/-- the entry of a dictionary -/
def entry {A : Type} (d : List (String × A)) (k : String) : Option A := (d.find? fun x => x.1 == k).map Prod.snd

/-- the entry `k` of the data of the node with the ID (the first one) -/
def nodeData {V : Type} (g : Graph V) (i : Int) (k : String) : Option (Val V) := (g.nodes.find? fun n => decide (n.id = i)).bind fun n => entry n.data k

/-- the first row with the ID -/
def firstRow {V : Type} (int : V → Int) (rows : List (List V)) (i : Int) : Option (List V) := rows.find? fun r => decide (r.head?.map int = some i)

/-- the last row with the ID -/
def lastRow {V : Type} (int : V → Int) (rows : List (List V)) (i : Int) : Option (List V) := firstRow int rows.reverse i

/-- a property has the ID of the row and its values under these names -/
def PropIs {V : Type} (int : V → Int) (names : List String) (r : List V) (p : Property V) : Prop :=
  r.head?.map int = some p.id ∧ names.length < r.length ∧ ∀ (j : Nat) n, names[j]? = some n → p.data[j]? = (r[j + 1]?).map fun v => (n, v)

/-- the properties of a cable: the control channel is -1 if it is not given -/
def CableIs {V : Type} [Ring V] (int : V → Int) (r : List V) (p : Property V) : Prop :=
  ∃ i ea rho t0 rest, r = i :: ea :: rho :: t0 :: rest ∧ p.id = int i ∧ entry p.data "EA" = some ea ∧ entry p.data "rho" = some rho ∧ entry p.data "T0" = some t0 ∧
    entry p.data "Chan" = some (rest.head?.getD (-1))

/-- the property of the set with the ID: that of the first row with it -/
def PropOf {V : Type} [Ring V] (int : V → Int) (sd : SubDyn V) (set : String) (i : Int) (p : Property V) : Prop :=
  (set = "Beam" ∧ ∃ r, firstRow int sd.beam i = some r ∧ PropIs int ["E", "G", "rho", "D", "t"] r p) ∨
  (set = "Cable" ∧ ∃ rows r, sd.cable = some rows ∧ firstRow int rows i = some r ∧ CableIs int r p) ∨
  (set = "Rigid" ∧ ∃ rows r, sd.rigid = some rows ∧ firstRow int rows i = some r ∧ PropIs int ["rho"] r p)

/-- the set of a type of member -/
def setName : Int → Option String
  | 1 => some "Beam"
  | 2 => some "Cable"
  | 3 => some "Rigid"
  | _ => none

/-- a row of the members says: ID, two joints, two properties, type (1 if it is not given) -/
def MemberRow {V : Type} (int : V → Int) (r : List V) (id a b p q t : Int) : Prop :=
  (r.map int = [id, a, b, p, q] ∧ t = 1) ∨ ∃ rest, r.map int = id :: a :: b :: p :: q :: t :: rest

/-- the rows of a set -/
def tableOf {V : Type} (sd : SubDyn V) (set : String) : List (List V) :=
  if set = "Beam" then sd.beam else if set = "Cable" then sd.cable.getD [] else if set = "Rigid" then sd.rigid.getD [] else []

/-- the IDs of the joints -/
def jointIDs {V : Type} (int : V → Int) (rows : List (List V)) : List Int := rows.filterMap fun r => r.head?.map int

/-- tables that fit together -/
structure Fits {V : Type} (int : V → Int) (sd : SubDyn V) : Prop where
  beam : ∀ r ∈ sd.beam, 6 ≤ r.length
  cable : ∀ rows, sd.cable = some rows → ∀ r ∈ rows, 4 ≤ r.length
  rigid : ∀ rows, sd.rigid = some rows → ∀ r ∈ rows, 2 ≤ r.length
  joints : ∀ r ∈ sd.joints, 4 ≤ r.length
  members : ∀ r ∈ sd.members, ∃ id a b p q t set, MemberRow int r id a b p q t ∧ setName t = some set ∧ a ∈ jointIDs int sd.joints ∧ b ∈ jointIDs int sd.joints ∧
    (firstRow int (tableOf sd set) p).isSome ∧ (firstRow int (tableOf sd set) q).isSome
  masses : ∀ r ∈ sd.masses, r.length = 11 ∧ ∀ i ∈ r.head?, int i ∈ jointIDs int sd.joints
  interface : ∀ r ∈ sd.interface, ∃ i l, r = i :: l ∧ int i ∈ jointIDs int sd.joints
  base : ∀ r ∈ sd.base, ∃ i l, r = i :: l ∧ int i ∈ jointIDs int sd.joints

/-- a joint of a SubDyn file and its node -/
def JointIs {V : Type} (int : V → Int) (r : List V) (n : Int × V × V × V) : Prop := ∃ i x y z rest, r = i :: x :: y :: z :: rest ∧ n = (int i, x, y, z)

/-- a member of a SubDyn file and its element -/
def MemberIs {V : Type} [Ring V] (int : V → Int) (sd : SubDyn V) (r : List V) (e : Elem V) : Prop :=
  ∃ a b p q t P Q, MemberRow int r e.id a b p q t ∧ e.nodeIDs = [a, b] ∧ a ∈ jointIDs int sd.joints ∧ b ∈ jointIDs int sd.joints ∧ (∀ s, setName t = some s → e.propset = s) ∧
    e.kind = e.propset ∧ e.propIDs = [p, q] ∧ e.props = [P, Q] ∧ PropOf int sd e.propset p P ∧ PropOf int sd e.propset q Q

/-- the bilinear form `pᵀ M q` of a matrix -/
def bil {V : Type} [Ring V] (M : List (List V)) (p q : List V) : V := ((M.zip p).map fun x => x.2 * ((x.1.zip q).map fun y => y.1 * y.2).sum).sum

/-- the names of the simple coefficients in a row with so many values -/
def coefNames (n : Nat) : List String :=
  if n = 12 then ["Cd", "CdMG", "Ca", "CaMG", "Cp", "CpMG", "AxCd", "AxCdMG", "AxCa", "AxCaMG", "AxCp", "AxCpMG"]
  else ["Cd", "CdMG", "Ca", "CaMG", "Cp", "CpMG", "AxCa", "AxCaMG", "AxCp", "AxCpMG"]

/-- the name of a kind of coefficients -/
def coefName : Int → Option String
  | 1 => some "SimpleCoefs"
  | 2 => some "DepthCoefs"
  | 3 => some "MemberCoefs"
  | _ => none

/-- a member of a HydroDyn file and its element -/
def HMemberIs {V : Type} (int : V → Int) (hd : HydroDyn V) (m : HMember) (e : Elem V) : Prop :=
  e.id = m.id ∧ e.nodeIDs = m.joints ∧ (∀ i ∈ m.joints, i ∈ jointIDs int hd.joints) ∧ (∀ c, coefName m.coef = some c → e.kind = c) ∧ e.propset = "Section" ∧ e.propIDs = m.props ∧
    List.Forall₂ (fun i p => ∃ rows r, hd.sections = some rows ∧ firstRow int rows i = some r ∧ PropIs int ["D", "t"] r p) m.props e.props

/-- the matrix of a row of the masses (what it is: C207) -/
def rowMatrix {V : Type} [Ring V] (r : List V) : Val V :=
  match r with
  | [_, m, Jxx, Jyy, Jzz, Jxy, Jxz, Jyz, x, y, z] => .mat (massMatrix m x y z Jxx Jyy Jzz Jxy Jxz Jyz)
  | _ => .mat []

/-- the axial coefficients of the joint with the ID: the first row with the ID in its fifth column -/
def axialRow {V : Type} (int : V → Int) (hd : HydroDyn V) (i : Int) : Option (List V) :=
  (firstRow int hd.joints i).bind fun r => r[4]?.bind fun a => firstRow int (hd.axial.getD []) (int a)

/-- some member with simple coefficients ends at the joint -/
def Simple {V : Type} (hd : HydroDyn V) (i : Int) : Prop := ∃ m ∈ hd.members, m.coef = 1 ∧ i ∈ m.joints

/-- tables of a HydroDyn file that fit together -/
structure HFits {V : Type} (int : V → Int) (hd : HydroDyn V) : Prop where
  sections : ∀ rows, hd.sections = some rows → ∀ r ∈ rows, 3 ≤ r.length
  axial : ∀ rows, hd.axial = some rows → ∀ r ∈ rows, 4 ≤ r.length
  simple : ∀ r ∈ hd.simple, r.length = 12 ∨ r.length = 10
  joints : ∀ r ∈ hd.joints, ∃ i x y z a rest, r = i :: x :: y :: z :: a :: rest ∧ (firstRow int (hd.axial.getD []) (int a)).isSome
  members : ∀ m ∈ hd.members, m.pot ≠ [] ∧ (coefName m.coef).isSome ∧ (∀ i ∈ m.joints, i ∈ jointIDs int hd.joints) ∧ (∀ p ∈ m.props, (firstRow int (hd.sections.getD []) p).isSome) ∧
    (m.coef = 1 → hd.simple ≠ [])

/-- a row of the nodes of the summary and the node: its degrees of freedom are those of the rows of the second table with its ID -/
def SumNodeIs {V : Type} (int : V → Int) (dofs : List (Int × Int)) (r : List V) (n : SNode V) : Prop :=
  (r[0]?).map int = some n.id ∧ r[1]? = some n.x ∧ r[2]? = some n.y ∧ r[3]? = some n.z ∧ (r[4]?).map int = some n.type ∧ ∀ d, d ∈ n.dofs ↔ (d, n.id) ∈ dofs

/-- a row of the elements of the summary and the element, without its moduli -/
def SumElemIs {V : Type} (int : V → Int) (r : List V) (e : SElem V) : Prop :=
  (r[0]?).map int = some e.id ∧ (∃ a b, (r[1]?).map int = some a ∧ (r[2]?).map int = some b ∧ e.nodeIDs = [a, b]) ∧ (r[5]?).map int = some e.type ∧ r[7]? = some e.area ∧ r[8]? = some e.rho

/-- the moduli of an element: the tenth and eleventh columns -/
def ModuliAre {V : Type} (r : List V) (e : SElem V) : Prop := r[9]? = some e.E ∧ r[10]? = some e.G

end Verif.FastGraph
