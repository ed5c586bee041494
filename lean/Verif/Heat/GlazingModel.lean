import Mathlib.Algebra.Order.Field.Basic
import Mathlib.Tactic.Ring
import Mathlib.Tactic.FieldSimp
import Mathlib.Tactic.Linarith
import Verif.Prelude

/-! Model of the optics of glazing systems, `/repo/heat/src/glazing.rs`, over an ordered field. -/

namespace Simple.Heat

variable {F : Type*} [Field F] [LinearOrder F]

/-- `glazing.rs:31-47`, `struct Glazing`. -/
@[ext] structure Glazing (F : Type*) where
  tau : F
  rhoFront : F
  rhoBack : F
  alphaFront : F
  alphaBack : F
deriving DecidableEq

/-- `glazing.rs:51-66`, `new`; a failed assertion is a panic. -/
def Glazing.new (tau rhoFront rhoBack : F) : Outcome (Glazing F) :=
  if 0 ≤ tau ∧ tau ≤ 1 ∧ 0 ≤ rhoFront ∧ 0 ≤ rhoBack ∧ rhoFront ≤ 1 ∧ rhoBack ≤ 1 then
    .ok { tau, rhoBack, rhoFront, alphaFront := 1 - tau - rhoFront, alphaBack := 1 - tau - rhoBack }
  else .panic

/-- `glazing.rs:176-178`. -/
def Glazing.combinedTau (g o : Glazing F) : F := g.tau * o.tau / (1 - g.rhoBack * o.rhoFront)

/-- `glazing.rs:187-189`. -/
def Glazing.combinedRhoFront (g o : Glazing F) : F :=
  g.rhoFront + g.tau ^ 2 * o.rhoFront / (1 - g.rhoBack * o.rhoFront)

/-- `glazing.rs:200-202`. -/
def Glazing.combinedRhoBack (g o : Glazing F) : F :=
  o.rhoBack + o.tau ^ 2 * g.rhoBack / (1 - o.rhoFront * g.rhoBack)

/-- `glazing.rs:209-214`, `combine`. -/
def Glazing.combine (g o : Glazing F) : Outcome (Glazing F) :=
  Glazing.new (g.combinedTau o) (g.combinedRhoFront o) (g.combinedRhoBack o)

/-- `glazing.rs:217-226`, `combine_layers`; `layers[1..]` panics when there are none. -/
def combineLayers : List (Glazing F) → Outcome (Glazing F)
  | [] => .panic
  | [g] => .ok g
  | g :: g' :: rest => (combineLayers (g' :: rest)).bind fun r => g.combine r

/-- `glazing.rs:243-248`, `combined_alphas`. -/
def Glazing.combinedAlphas (g o : Glazing F) : F × F :=
  let denom := 1 - g.rhoBack * o.rhoFront
  (g.alphaFront + g.alphaBack * g.tau * o.rhoFront / denom, o.alphaFront * g.tau / denom)

/-- The loop of `glazing.rs:267-273`, from `i` on, `count` times; what it pushes. -/
def alphasLoop (layers : List (Glazing F)) : (count i : ℕ) → (acc : F) → Outcome (List F)
  | 0, _, _ => .ok []
  | count + 1, i, acc =>
    (combineLayers (layers.take i)).bind fun g0 =>
      (combineLayers (layers.drop i)).bind fun g1 =>
        let a0 := (g0.combinedAlphas g1).1
        (alphasLoop layers count (i + 1) a0).bind fun rest => .ok ((a0 - acc) :: rest)

/-- `glazing.rs:255-282`, `alphas`. -/
def alphas (layers : List (Glazing F)) : Outcome (List F) :=
  match layers with
  | [] => .ok []
  | [g] => .ok [g.alphaFront]
  | _ =>
    (alphasLoop layers (layers.length - 1) 1 0).bind fun ret =>
      (combineLayers (layers.take (layers.length - 1))).bind fun g0 =>
        match layers.getLast? with
        | some g1 => .ok (ret ++ [(g0.combinedAlphas g1).2])
        | none => .panic

/-- The substance of a layer of a construction, as far as it matters here: a gas, or the optional
solar transmittance and absorptances of a solid. -/
inductive Layer (F : Type*) where
  | gas
  | normal (tau alphaFront alphaBack : Option F)

/-- `glazing.rs:68-108`, `get_glazing_from_iter`, on the substances of the materials.  Names which
are not in the model (an error) are not modelled. -/
def glazingFromIter : List (Layer F) → Outcome (List (Glazing F))
  | [] => .err
  | .gas :: _ => .panic
  | .normal tau alphaFront alphaBack :: rest =>
    let tau := tau.getD 0
    let alphaFront := alphaFront.getD 0.84
    let alphaBack := alphaBack.getD 0.84
    (Glazing.new tau (1 - tau - alphaFront) (1 - tau - alphaBack)).bind fun g =>
      if tau < 1e-9 then .ok [g]
      else
        match rest with
        | [] => .ok [g]
        | .normal _ _ _ :: _ => .panic
        | .gas :: rest => (glazingFromIter rest).bind fun gs => .ok (g :: gs)

end Simple.Heat
