import Verif.Heat.DiscretizationModel
import Verif.Matrix.NDiagModel

/-! Model of the march of a chunk of nodes with mass: `get_k_q` of `/repo/heat/src/discretization.rs`,
and `rearrange_k`, `rk4` and `march_mass` of `/repo/heat/src/surface.rs`, over a field.

The U-value of a cavity (`heat/src/cavity.rs`) is a parameter, `cav`. -/

namespace Simple.Heat

open Simple.Matrix

variable {F : Type*} [Field F]

/-- `surface.rs:50-70`, `struct ChunkMemory`. -/
structure ChunkMemory (F : Type*) where
  temps : List F
  aux : List F
  k : NDiag 3 F
  c : List F
  q : List F
  k1 : List F
  k2 : List F
  k3 : List F
  k4 : List F

/-- `convection.rs`, the fields of `ConvectionParams` used here. -/
structure Env (F : Type*) where
  airTemperature : F
  radTemperature : F

/-- The U-value of a cavity between two temperatures. -/
abbrev CavityU (F : Type*) := Cavity F → F → F → Outcome F

/-- `discretization.rs:49-56`, `u_value`. -/
def UValue.uValue (cav : CavityU F) : UValue F → F → F → Outcome F
  | .solid u, _, _ => .ok u
  | .cavity c, t1, t2 => cav c t1 t2
  | .back, _, _ => .ok 0
  | .none, _, _ => .panic

/-- The result of a write in a matrix, followed by `?`. -/
def written (x : Outcome F × NDiag 3 F) : Outcome (NDiag 3 F) :=
  match x.1 with
  | .ok _ => .ok x.2
  | .err => .err
  | .panic => .panic

/-- `if let Ok(old_value) = k.get(r, c) { k.set(r, c, f(old_value))?; }`, as in
`discretization.rs:656-680`. -/
def updateIf (k : NDiag 3 F) (r c : ℕ) (f : F → F) : Outcome (NDiag 3 F) :=
  match k.get r c with
  | .ok old => written (k.set r c (f old))
  | .err => .ok k
  | .panic => .panic

/-- `temperatures.get(i, 0)?`. -/
def getT (temps : List F) (i : ℕ) : Outcome F := need temps[i]?

/-- `discretization.rs:636-641`, `get_t_after`. -/
def getTAfter (temps : List F) (back : Env F) (i : ℕ) : F :=
  match temps[i + 1]? with
  | some v => v
  | none => back.airTemperature

/-- The loop of `discretization.rs:643-681`: `count` more nodes from `localI`. -/
def kLoop (cav : CavityU F) (segments : List (F × UValue F)) (temps : List F) (back : Env F)
    (ini : ℕ) : (count localI : ℕ) → NDiag 3 F → Outcome (NDiag 3 F)
  | 0, _, k => .ok k
  | count + 1, localI, k =>
    (getT temps (ini + localI)).bind fun tThis =>
      (Outcome.index segments (ini + localI)).bind fun s =>
        (s.2.uValue cav tThis (getTAfter temps back (ini + localI))).bind fun u =>
          (written (k.addToElement localI localI (-u))).bind fun k =>
            (updateIf k (localI + 1) (localI + 1) (· - u)).bind fun k =>
              (updateIf k localI (localI + 1) (· + u)).bind fun k =>
                (updateIf k (localI + 1) localI (· + u)).bind fun k =>
                  kLoop cav segments temps back ini count (localI + 1) k

/-- `discretization.rs:684-701`: conductance to what is before the chunk, and heat from it. -/
def frontBorder (cav : CavityU F) (segments : List (F × UValue F)) (temps : List F) (ini : ℕ)
    (front : Env F) (frontHs frontRadHs : F) : Outcome (F × F) :=
  if ini = 0 then
    (getT temps 0).bind fun ts =>
      .ok (frontHs, front.airTemperature * frontHs + frontRadHs * (front.radTemperature - ts))
  else
    (Outcome.index segments (ini - 1)).bind fun s =>
      (getT temps (ini - 1)).bind fun tBefore =>
        (getT temps ini).bind fun tAfter =>
          (s.2.uValue cav tBefore tAfter).bind fun u => .ok (u, u * tBefore)

/-- `discretization.rs:710-725`: conductance to what is after the chunk, and heat from it. -/
def backBorder (cav : CavityU F) (segments : List (F × UValue F)) (temps : List F) (fin : ℕ)
    (back : Env F) (backHs backRadHs : F) : Outcome (F × F) :=
  if fin = temps.length then
    (getT temps (fin - 1)).bind fun ts =>
      .ok (backHs, back.airTemperature * backHs + backRadHs * (back.radTemperature - ts))
  else
    (Outcome.index segments (fin - 1)).bind fun s =>
      (getT temps (fin - 1)).bind fun tBefore =>
        (s.2.uValue cav tBefore (getTAfter temps back (fin - 1))).bind fun u =>
          .ok (u, u * getTAfter temps back (fin - 1))

/-- `discretization.rs:605-735`, `get_k_q`.  The temperatures are a column, as many as nodes (a failed
assertion otherwise); `fin - ini` and `nnodes - 1` panic when they underflow. -/
def getKQ (cav : CavityU F) (segments : List (F × UValue F)) (ini fin : ℕ) (temps : List F)
    (front : Env F) (frontHs frontRadHs : F) (back : Env F) (backHs backRadHs : F)
    (mem : ChunkMemory F) : Outcome (ChunkMemory F) :=
  if temps.length = segments.length then
    if ini < fin then
      let nnodes := fin - ini
      (kLoop cav segments temps back ini (nnodes - 1) 0 (mem.k.mulAssign 0)).bind fun k =>
        (frontBorder cav segments temps ini front frontHs frontRadHs).bind fun fb =>
          (modifyAt (mem.q.map fun _ => 0) 0 (· + fb.2)).bind fun q =>
            (written (k.addToElement 0 0 (-fb.1))).bind fun k =>
              (backBorder cav segments temps fin back backHs backRadHs).bind fun bb =>
                (modifyAt q (nnodes - 1) (· + bb.2)).bind fun q =>
                  (written (k.addToElement (nnodes - 1) (nnodes - 1) (-bb.1))).bind fun k =>
                    .ok { mem with k, q }
    else .panic
  else .panic

/-- The inner loop of `surface.rs:135-137`, `count` columns from `col`. -/
def scaleRow (row : ℕ) (v : F) : (count col : ℕ) → NDiag 3 F → Outcome (NDiag 3 F)
  | 0, _, k => .ok k
  | count + 1, col, k =>
    (written (k.scaleElement row col v)).bind fun k => scaleRow row v count (col + 1) k

/-- The outer loop of `surface.rs:125-139`, `count` rows from `row`. -/
def rearrangeLoop (dt : F) (c : List F) : (count row : ℕ) → NDiag 3 F → List F →
    Outcome (NDiag 3 F × List F)
  | 0, _, k, q => .ok (k, q)
  | count + 1, row, k, q =>
    (Outcome.index c row).bind fun cr =>
      let v := dt / cr
      let ini := if row = 0 then 0 else row - 1
      let fin := if row = c.length - 1 then c.length - 1 else row + 1
      (scaleRow row v (fin + 1 - ini) ini k).bind fun k =>
        (modifyAt q row (· * v)).bind fun q => rearrangeLoop dt c count (row + 1) k q

/-- `surface.rs:122-141`, `rearrange_k`. -/
def rearrangeK (dt : F) (mem : ChunkMemory F) : Outcome (ChunkMemory F) :=
  (rearrangeLoop dt mem.c mem.c.length 0 mem.k mem.q).bind fun (k, q) => .ok { mem with k, q }

/-- `surface.rs:72-74`, `add_assign`. -/
def addAssign : List F → List F → List F
  | x :: a, y :: b => (x + y) :: addAssign a b
  | a, _ => a

/-- `surface.rs:76-78`, `scale`. -/
def scaleList (a : List F) (v : F) : List F := a.map (· * v)

/-- `aux.iter_mut().zip(k.iter()).for_each(|(a, b)| *a = 0.5 * b)`, `surface.rs:217-221`. -/
def halfInto : List F → List F → List F
  | _ :: a, y :: b => (1 / 2 * y) :: halfInto a b
  | a, _ => a

/-- `copy_from_slice`, which panics when the lengths differ. -/
def copyFromSlice (a b : List F) : Outcome (List F) := if a.length = b.length then .ok b else .panic

/-- `surface.rs:182-274`, `rk4`, without the debug assertions on the sizes. -/
def rk4 (mem : ChunkMemory F) : Outcome (ChunkMemory F) :=
  (mem.k.columnProdInto mem.temps mem.k1).bind fun k1 =>
    let k1 := addAssign k1 mem.q
    let aux := addAssign (halfInto mem.aux k1) mem.temps
    (mem.k.columnProdInto aux mem.k2).bind fun k2 =>
      let k2 := addAssign k2 mem.q
      let aux := addAssign (halfInto aux k2) mem.temps
      (mem.k.columnProdInto aux mem.k3).bind fun k3 =>
        let k3 := addAssign k3 mem.q
        (copyFromSlice aux k3).bind fun aux =>
          let aux := addAssign aux mem.temps
          (mem.k.columnProdInto aux mem.k4).bind fun k4 =>
            let k4 := addAssign k4 mem.q
            let k1 := scaleList k1 (1 / 6)
            let k2 := scaleList k2 (1 / 3)
            let k3 := scaleList k3 (1 / 3)
            let k4 := scaleList k4 (1 / 6)
            let temps := addAssign (addAssign (addAssign (addAssign mem.temps k1) k2) k3) k4
            .ok { mem with temps, aux, k1, k2, k3, k4 }

/-- `v[i] = x` for each of the `xs`, from `i` on; a panic out of bounds. -/
def storeAt : List F → (i : ℕ) → (xs : List F) → Outcome (List F)
  | l, _, [] => .ok l
  | l, i, x :: xs => (modifyAt l i fun _ => x).bind fun l => storeAt l (i + 1) xs

/-- The loop of `surface.rs:786-789`: adds the solar radiation. -/
def addSolar (solar : List F) : (count localI globalI : ℕ) → List F → Outcome (List F)
  | 0, _, _, q => .ok q
  | count + 1, localI, globalI, q =>
    (getT solar globalI).bind fun v =>
      (modifyAt q localI (· + v)).bind fun q => addSolar solar count (localI + 1) (globalI + 1) q

/-- The loop of `surface.rs:795-802`: copies the temperatures of the chunk. -/
def loadTemps (globalT : List F) : (count localI globalI : ℕ) → List F → Outcome (List F)
  | 0, _, _, l => .ok l
  | count + 1, localI, globalI, l =>
    (getT globalT globalI).bind fun v =>
      (modifyAt l localI fun _ => v).bind fun l => loadTemps globalT count (localI + 1) (globalI + 1) l

/-- The loop of `surface.rs:806-813`: copies the temperatures back. -/
def storeTemps (temps : List F) : (count localI globalI : ℕ) → List F → Outcome (List F)
  | 0, _, _, l => .ok l
  | count + 1, localI, globalI, l =>
    (Outcome.index temps localI).bind fun v =>
      if globalI < l.length then storeTemps temps count (localI + 1) (globalI + 1) (l.set globalI v)
      else .err

/-- `surface.rs:741-816`, `march_mass`, given the border conditions; returns the temperatures of all
the nodes and the memory. -/
def marchMass (cav : CavityU F) (segments : List (F × UValue F)) (globalT solar : List F) (dt : F)
    (front : Env F) (frontHs frontRadHs : F) (back : Env F) (backHs backRadHs : F) (ini fin : ℕ)
    (mem : ChunkMemory F) : Outcome (List F × ChunkMemory F) :=
  (getKQ cav segments ini fin globalT front frontHs frontRadHs back backHs backRadHs mem).bind fun mem =>
    (storeAt (mem.c.map fun _ => 0) 0 (((segments.drop ini).take (fin - ini)).map Prod.fst)).bind fun c =>
      (addSolar solar (fin - ini) 0 ini mem.q).bind fun q =>
        (rearrangeK dt { mem with c, q }).bind fun mem =>
          (loadTemps globalT (fin - ini) 0 ini mem.temps).bind fun temps =>
            (rk4 { mem with temps }).bind fun mem =>
              (storeTemps mem.temps (fin - ini) 0 ini globalT).bind fun globalT =>
                .ok (globalT, mem)

end Simple.Heat
