import Verif.Heat.ChunkModel
import Verif.Matrix.GaussModel

/-! Model of the march of a chunk of nodes without mass: `march_nomass` of `/repo/heat/src/surface.rs`,
over an ordered field, given the border conditions.

The border conditions that the code calculates again in every turn depend only on what does not change
in the loop (the state, the temperatures of the air and the wind), so they are parameters here. -/

namespace Simple.Heat

open Simple.Matrix

variable {F : Type*} [Field F] [LinearOrder F]

/-- `surface.rs:1060-1087`: the temperatures with which the heat would balance, if the radiation and the
cavities were those of the current ones.  `tiny` is the smallest pivot of the elimination. -/
def nomassTurn (tiny : F) (cav : CavityU F) (segments : List (F × UValue F)) (globalT solar : List F)
    (front : Env F) (frontHs frontRadHs : F) (back : Env F) (backHs backRadHs : F) (ini fin : ℕ)
    (mem : ChunkMemory F) : Outcome (List F × ChunkMemory F) :=
  (getKQ cav segments ini fin globalT front frontHs frontRadHs back backHs backRadHs mem).bind fun mem =>
    (addSolar solar (fin - ini) 0 ini mem.q).bind fun q =>
      let q := scaleList q (-1)
      (mem.k.mutGaussian tiny q).bind fun x => .ok (x.1, { mem with q })

/-- The loop of `surface.rs:1090-1094`: how much all the nodes of the chunk are to change. -/
def nomassErr (temps globalT : List F) : (count localI globalI : ℕ) → F → Outcome F
  | 0, _, _, err => .ok err
  | count + 1, localI, globalI, err =>
    (Outcome.index temps localI).bind fun v =>
      (getT globalT globalI).bind fun t => nomassErr temps globalT count (localI + 1) (globalI + 1) (err + |v - t|)

/-- The loop of `surface.rs:1132-1137`: takes the nodes of the chunk half the way. -/
def halfway (temps : List F) : (count localI globalI : ℕ) → List F → Outcome (List F)
  | 0, _, _, l => .ok l
  | count + 1, localI, globalI, l =>
    (Outcome.index temps localI).bind fun v =>
      (getT l globalI).bind fun t => halfway temps count (localI + 1) (globalI + 1) (l.set globalI ((t + v) * (1 / 2)))

/-- `surface.rs:1139`: the error that stops the loop, in turn number `count`. -/
def allowedError (count : ℕ) : F := if count < 100 then 1 / 100 else 1 / 2

/-- The loop of `surface.rs:1055-1152`, with `left` more turns after this one: it breaks in turn 19001,
so the number of the turn is `19001 - left`.  The assertion that the error is a number is left out. -/
def nomassLoop (tiny : F) (cav : CavityU F) (segments : List (F × UValue F)) (solar : List F)
    (front : Env F) (frontHs frontRadHs : F) (back : Env F) (backHs backRadHs : F) (ini fin : ℕ) :
    (left : ℕ) → (oldErr : F) → (globalT : List F) → (mem : ChunkMemory F) →
      Outcome (List F × ChunkMemory F)
  | left, oldErr, globalT, mem =>
    (nomassTurn tiny cav segments globalT solar front frontHs frontRadHs back backHs backRadHs ini fin mem).bind
      fun x =>
        (nomassErr x.1 globalT (fin - ini) 0 ini 0).bind fun total =>
          let err := total / ((fin - ini : ℕ) : F)
          if err > oldErr then .ok (globalT, x.2)
          else
            (halfway x.1 (fin - ini) 0 ini globalT).bind fun globalT =>
              if err < allowedError (19001 - left) then .ok (globalT, x.2)
              else match left with
                | 0 => .ok (globalT, x.2)
                | left + 1 =>
                  nomassLoop tiny cav segments solar front frontHs frontRadHs back backHs backRadHs ini fin
                    left err globalT x.2

/-- `surface.rs:1032-1154`, `march_nomass`. -/
def marchNomass (tiny : F) (cav : CavityU F) (segments : List (F × UValue F)) (globalT solar : List F)
    (front : Env F) (frontHs frontRadHs : F) (back : Env F) (backHs backRadHs : F) (ini fin : ℕ)
    (mem : ChunkMemory F) : Outcome (List F × ChunkMemory F) :=
  nomassLoop tiny cav segments solar front frontHs frontRadHs back backHs backRadHs ini fin 19001 99999
    globalT mem

end Simple.Heat
