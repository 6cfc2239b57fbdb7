import Lean.Elab.Tactic.Simp
import Verif.Lemmas.SrcOut

/-! A tactic that executes a function of a source text: it rewrites with the equations of `Verif/Lemmas/Src.lean`, from the outside
in. -/

namespace Crunch.Src

open Lean Meta Simp

/-- Writes out a list. -/
partial def listLit (e : Expr) : MetaM Expr := do
  let e ← whnfD e
  if e.isAppOfArity ``List.cons 3 then
    return mkApp3 e.getAppFn (e.getArg! 0) (← whnfD (e.getArg! 1)) (← listLit (e.getArg! 2))
  return e

/-- Writes literals as Lean does. -/
def literals (e : Expr) : MetaM Expr :=
  Meta.transform e (post := fun e => do
    match e with
    | .app (.const f _) n =>
      if f == ``Crunch.Src.len && n.isAppOfArity ``Crunch.Src.mem 1 then
        return .done (mkApp (mkConst ``Crunch.Slice.len) n.appArg!)
      let t? := if f == ``Int64.ofNat then some ``Int64 else if f == ``UInt64.ofNat then some ``UInt64
        else if f == ``UInt8.ofNat then some ``UInt8 else none
      match t?, n.nat? <|> n.rawNatLit? with
      | some t, some n => return .done (← mkNumeral (mkConst t) n)
      | _, _ => return .continue
    | _ => return .continue)

simproc_decl srcEnv (withEnv _ _) := fun e => do
  let n := e.getAppNumArgs
  if n < 2 then return .continue
  let env := e.getArg! (n - 2)
  let f := e.getArg! (n - 1)
  let env' ← literals (← listLit env)
  let r := (mkApp f env').headBeta
  return .visit { expr := r, proof? := some (← mkExpectedTypeHint (← mkEqRefl r) (← mkEq e r)) }

simproc_decl srcV (withV _ _) := fun e => do
  let n := e.getAppNumArgs
  if n < 2 then return .continue
  let v := e.getArg! (n - 2)
  let f := e.getArg! (n - 1)
  let v' ← literals (← whnfD v)
  unless v'.isConst || (← isConstructorApp? v').isSome do return .continue
  let r := (mkApp f v').headBeta
  return .visit { expr := r, proof? := some (← mkExpectedTypeHint (← mkEqRefl r) (← mkEq e r)) }

simproc_decl srcOpt (bind (ofOpt _) _) := fun e => do
  let n := e.getAppNumArgs
  if n < 2 then return .continue
  let a := e.getArg! (n - 2)
  let k := e.getArg! (n - 1)
  unless a.isAppOf ``ofOpt do return .continue
  let x := a.getArg! (a.getAppNumArgs - 1)
  let x' ← whnfD x
  unless x'.isAppOfArity ``Option.some 2 do return .continue
  let v := x'.getArg! 1
  let v ← if (← whnfR (x'.getArg! 0)).isConstOf ``V then whnfD v else pure v
  let v ← literals v
  let h ← mkExpectedTypeHint (← mkEqRefl x') (← mkEq x (mkApp2 x'.getAppFn (x'.getArg! 0) v))
  let p ← mkAppM ``ofOpt_of #[h, k]
  return .visit { expr := (mkApp k v).headBeta, proof? := some p }

/-- Executes. -/
syntax "src" (" [" Lean.Parser.Tactic.simpLemma,* "]")? : tactic

macro_rules
  | `(tactic| src) => `(tactic| src [])
  | `(tactic| src [$ls,*]) => `(tactic| simp only [↓bind_assoc, ↓pure_bind, ↓srcEnv, ↓srcV, ↓srcOpt, ↓onBool_decide, onBool_bool,
    ↓unbrk_next, ↓unbrk_brk, ↓LawfulSem.fail_bind, ↓execBody_cons, ne_eq, reduceCtorEq, not_false_eq_true,
    ↓onNext_next, ↓onNext_ret, ↓onNext_goto, ↓onNext_brk, ↓fin_next, ↓fin_ret, ↓eval_nil, ↓eval_lit, ↓eval_bool, ↓eval_var, ↓eval_field, ↓eval_buf, ↓eval_out, ↓eval_outPtr, ↓eval_bin, ↓eval_compl, ↓eval_conv, ↓eval_bits, ↓eval_len, ↓eval_cap, ↓eval_index, ↓eval_sliceFrom, ↓eval_slice, ↓eval_make, ↓eval_makeCap, ↓eval_makeT, ↓eval_append, ↓eval_call, ↓eval_bytes, ↓index_bytes, ↓index_li16, ↓index_li32, ↓index_li64, ↓index_lu16, ↓index_lu32, ↓index_lu64, ↓index_lf32, ↓index_lf64, ↓index_slices, ↓setIndex_li16, ↓setIndex_li32, ↓setIndex_li64, ↓setIndex_lu16, ↓setIndex_lu32, ↓setIndex_lu64, ↓setIndex_lf32, ↓setIndex_lf64, ↓makeT_i16, ↓makeT_i32, ↓makeT_i64, ↓makeT_u16, ↓makeT_u32, ↓makeT_u64, ↓makeT_f32, ↓makeT_f64, ↓evals_cons, ↓evals_nil, ↓exec_nil, ↓exec_cons, ↓exec_set, ↓exec_zero, ↓exec_setField, ↓exec_setBuf, ↓exec_setBufAt, ↓exec_setAt, ↓exec_setOut, ↓exec_setOutAt, ↓exec_new, ↓exec_copy, ↓exec_expr, ↓exec_callAddr, ↓exec_ret, ↓exec_retNone, ↓exec_panic, ↓exec_ifs, ↓exec_block, ↓exec_goto, ↓exec_brk, ↓exec_switch, ↓clauses_case, ↓clauses_case8, ↓clauses_default, ↓exec_lock, ↓exec_unlock, ↓exec_rangeVal, ↓exec_rangeIdx, ↓exec_for, ↓execBody_defer, ↓execBody_nil, $ls,*])

/-- Unfolds the model of a v3 `Buffer` or of a `MiniBuffer` to the same primitives. -/
syntax "gom" (" [" Lean.Parser.Tactic.simpLemma,* "]")? : tactic

macro_rules
  | `(tactic| gom) => `(tactic| gom [])
  | `(tactic| gom [$ls,*]) => `(tactic| simp only [Int64.reduceOfNat, UInt64.reduceOfNat, UInt8.reduceOfNat, decide_eq_true_eq, gom_fail, gom_off, gom_cap, gom_boff, gom_bcap, gom_set_off, gom_set_cap, gom_set_boff, gom_set_bcap, gom_buf, gom_assignBuf, gom_load, gom_store,
    gom_idx, gom_setIdx, gom_reslice, gom_resliceFrom, gom_lit, gom_make, gom_makeCap, gom_makeTyped, gom_append, gom_appendLit, gom_copy,
    gom_getOut, gom_putOut, gom_panicIf, onB_pure, onB_bind, onB_throwP, onB_panicIf, onB_ite, onB_idx, onB_setIdx, onB_makeTyped, onB_doLoop, onB_forLoop,
    V3.bufLoad, V3.bufStore, bind_assoc, pure_bind, throwP_bind, ite_bind', len_mem, conv, shl16_8, shr16_8, shl32_8, shr32_8, shl32_16, shr32_16, shl32_24, shr32_24, shl64_1, shl64_8, shr64_8, shl64_16, shr64_16, shl64_24, shr64_24, shl64_32, shr64_32, shl64_40, shr64_40, shl64_48, shr64_48, shl64_56, shr64_56, shlI16_8, shrI16_8, shlI32_8, shrI32_8, shlI32_16, shrI32_16, shlI32_24, shrI32_24, shlI64_8, shrI64_8, shlI64_16, shrI64_16, shlI64_24, shrI64_24, shlI64_32, shrI64_32, shlI64_40, shrI64_40, shlI64_48, shrI64_48, shlI64_56, shrI64_56, byte_UInt16, byte_UInt32, byte_UInt64, byte_Int16, byte_Int32, byte_Int64, ofByte_UInt16, ofByte_UInt32, ofByte_UInt64, ofByte_Int16, ofByte_Int32, ofByte_Int64, $ls,*])

/-- Executes a method with an out parameter. -/
syntax "outs" (" [" Lean.Parser.Tactic.simpLemma,* "]")? : tactic

macro_rules
  | `(tactic| outs) => `(tactic| outs [])
  | `(tactic| outs [$ls,*]) => `(tactic| simp only [↓bind_assoc, ↓pure_bind, ↓srcEnv, ↓srcV, ↓srcOpt, ↓onBool_decide, onBool_bool,
    ↓unbrk_next, ↓unbrk_brk, ↓LawfulSem.fail_bind, ↓execBody_cons, ne_eq, reduceCtorEq, not_false_eq_true,
    ↓onNext_next, ↓onNext_ret, ↓onNext_goto, ↓onNext_brk, ↓fin_next, ↓fin_ret, ↓eval_nil, ↓eval_lit, ↓eval_bool, ↓eval_var, ↓eval_field, ↓eval_buf, ↓eval_out, ↓eval_outPtr, ↓eval_bin, ↓eval_compl, ↓eval_conv, ↓eval_bits, ↓eval_len, ↓eval_cap, ↓eval_index, ↓eval_sliceFrom, ↓eval_slice, ↓eval_make, ↓eval_makeCap, ↓eval_makeT, ↓eval_append, ↓eval_call, ↓eval_bytes, ↓index_bytes, ↓index_li16, ↓index_li32, ↓index_li64, ↓index_lu16, ↓index_lu32, ↓index_lu64, ↓index_lf32, ↓index_lf64, ↓index_slices, ↓setIndex_li16, ↓setIndex_li32, ↓setIndex_li64, ↓setIndex_lu16, ↓setIndex_lu32, ↓setIndex_lu64, ↓setIndex_lf32, ↓setIndex_lf64, ↓makeT_i16, ↓makeT_i32, ↓makeT_i64, ↓makeT_u16, ↓makeT_u32, ↓makeT_u64, ↓makeT_f32, ↓makeT_f64, ↓evals_cons, ↓evals_nil, ↓exec_nil, ↓exec_cons, ↓exec_set, ↓exec_zero, ↓exec_setField, ↓exec_setBuf, ↓exec_setBufAt, ↓exec_setAt, ↓exec_setOut, ↓exec_setOutAt, ↓exec_new, ↓exec_copy, ↓exec_expr, ↓exec_callAddr, ↓exec_ret, ↓exec_retNone, ↓exec_panic, ↓exec_ifs, ↓exec_block, ↓exec_goto, ↓exec_brk, ↓exec_switch, ↓clauses_case, ↓clauses_case8, ↓clauses_default, ↓exec_lock, ↓exec_unlock, ↓exec_rangeVal, ↓exec_rangeIdx, ↓exec_for, ↓execBody_defer, ↓execBody_nil,
    Int64.reduceOfNat, UInt64.reduceOfNat, UInt8.reduceOfNat, decide_eq_true_eq, gom_fail, gom_off, gom_cap, gom_boff, gom_bcap, gom_set_off, gom_set_cap, gom_set_boff, gom_set_bcap, gom_buf, gom_assignBuf, gom_load, gom_store,
    gom_idx, gom_setIdx, gom_reslice, gom_resliceFrom, gom_lit, gom_make, gom_makeCap, gom_makeTyped, gom_append, gom_appendLit, gom_copy,
    gom_getOut, gom_putOut, gom_panicIf, onB_pure, onB_bind, onB_throwP, onB_panicIf, onB_ite, onB_idx, onB_setIdx, onB_makeTyped, onB_doLoop, onB_forLoop,
    V3.bufLoad, V3.bufStore, throwP_bind, ite_bind', len_mem, conv, shl16_8, shr16_8, shl32_8, shr32_8, shl32_16, shr32_16, shl32_24, shr32_24, shl64_1, shl64_8, shr64_8, shl64_16, shr64_16, shl64_24, shr64_24, shl64_32, shr64_32, shl64_40, shr64_40, shl64_48, shr64_48, shl64_56, shr64_56, shlI16_8, shrI16_8, shlI32_8, shrI32_8, shlI32_16, shrI32_16, shlI32_24, shrI32_24, shlI64_8, shrI64_8, shlI64_16, shrI64_16, shlI64_24, shrI64_24, shlI64_32, shrI64_32, shlI64_40, shrI64_40, shlI64_48, shrI64_48, shlI64_56, shrI64_56, byte_UInt16, byte_UInt32, byte_UInt64, byte_Int16, byte_Int32, byte_Int64, ofByte_UInt16, ofByte_UInt32, ofByte_UInt64, ofByte_Int16, ofByte_Int32, ofByte_Int64,
    at_onB, at_idx, at_setIdx, at_throwP, at_getOut, at_putOut, at_ite,
    thru_pure, thru_bind, thru_onB, thru_idx, thru_setIdx, thru_throwP, thru_getOut, thru_putOut, thru_ite, $ls,*])

/-- Two programs that start alike. -/
macro "down" : tactic => `(tactic| repeat' first
  | with_reducible rfl
  | with_reducible refine bind_congr fun _ => ?_
  | with_reducible refine ob_congr _ _ fun _ => ?_
  | with_reducible refine thru_congr _ _ _ fun _ _ => ?_
  | with_reducible refine ite_congr rfl (fun _ => ?_) (fun _ => ?_))

/-- `exact` where only the kernel compares the type of the term with the goal; it is faster at computing with names. -/
elab "kexact " e:term : tactic => do
  let g ← Lean.Elab.Tactic.getMainGoal
  g.assign (← Lean.Elab.Tactic.elabTerm e none)

end Crunch.Src
