import Lean.Elab.Tactic
/-!
# One kernel evaluation for several checks on the toy chain

`checked` closes all remaining goals and fills all holes `?_` left open before, each of the form `b = true` or `b = false` with `b` a closed
Boolean expression, or else a closed decidable proposition. It states their conjunction as one lemma proved by `Eq.refl true`, which the kernel evaluates, so that a world of the toy chain mentioned in several goals is
computed only once.
-/
namespace Verif.Toy
open Lean Meta Elab Tactic

theorem of_not {b : Bool} (h : (!b) = true) : b = false := by simpa using h
theorem and_left {a b : Bool} (h : (a && b) = true) : a = true := (Bool.and_eq_true_iff.1 h).1
theorem and_right {a b : Bool} (h : (a && b) = true) : b = true := (Bool.and_eq_true_iff.1 h).2

elab "checked" : tactic => do
  let named := (← getMCtx).decls.foldl (init := #[]) fun acc g d => if d.kind.isSyntheticOpaque then acc.push (d.index, g) else acc
  let mut gs := #[]
  for (_, g) in named.qsort (fun a b => a.1 < b.1) do
    unless (← g.isAssigned) || (← g.isDelayedAssigned) do
      gs := gs.push g
  let mut parts : Array (Expr × (Expr → MetaM Unit)) := #[]
  for g in gs do
    let t ← instantiateMVars (← g.getType)
    let t ← whnfR t
    if t.hasMVar || t.hasFVar then throwTacticEx `checked g m!"the goal is not closed: {t}"
    match t.eq? with
    | some (_, b, .const ``Bool.true _) => parts := parts.push (b, fun h => g.assign h)
    | some (_, b, .const ``Bool.false _) => parts := parts.push (mkApp (mkConst ``Bool.not) b, fun h => g.assign (mkApp2 (mkConst ``Verif.Toy.of_not) b h))
    | _ =>
      let inst ← synthInstance (mkApp (mkConst ``Decidable) t)
      parts := parts.push (mkApp2 (mkConst ``Decidable.decide) t inst, fun h => g.assign (mkApp3 (mkConst ``of_decide_eq_true) t inst h))
  let tail := parts.foldr (init := [mkConst ``Bool.true]) fun (b, _) acc => mkApp2 (mkConst ``Bool.and) b acc.head! :: acc
  let all := tail.head!
  let type ← mkEq all (mkConst ``Bool.true)
  let proof := mkApp2 (mkConst ``Eq.refl [1]) (mkConst ``Bool) (mkConst ``Bool.true)
  let lemmaName ← mkAuxLemma [] type proof
  let mut h := mkConst lemmaName
  let mut rest := tail
  for (b, close) in parts do
    rest := rest.tail!
    close (mkApp3 (mkConst ``Verif.Toy.and_left) b rest.head! h)
    h := mkApp3 (mkConst ``Verif.Toy.and_right) b rest.head! h
  setGoals []

example : ∃ n : Nat, Nat.ble 3 n = true ∧ Nat.beq n 7 = false ∧ n < 6 ∧ Nat.beq n 5 = true := by
  refine ⟨5, ?_, ?_, ?_, ?_⟩
  checked

end Verif.Toy
