import Verif.Src.Tactic
import Verif.Lemmas.SrcProg

/-! The tactics of `Verif/Src/Tactic.lean` for the v1 and v2 `Buffer`s. -/

namespace Crunch.Src

/-- Executes. -/
syntax "srcp" (" [" Lean.Parser.Tactic.simpLemma,* "]")? : tactic

macro_rules
  | `(tactic| srcp) => `(tactic| srcp [])
  | `(tactic| srcp [$ls,*]) => `(tactic| simp only [↓bind_assoc, ↓pure_bind, ↓srcEnv, ↓srcV, ↓srcOpt, ↓onBool_decide, onBool_bool,
    ↓unbrk_next, ↓unbrk_brk, ↓LawfulSem.fail_bind, ↓execBody_cons, ne_eq, reduceCtorEq, not_false_eq_true,
    ↓onNext_next, ↓onNext_ret, ↓onNext_goto, ↓onNext_brk, ↓fin_next, ↓fin_ret, ↓eval_nil, ↓eval_lit, ↓eval_bool, ↓eval_var, ↓eval_field, ↓eval_buf, ↓eval_out, ↓eval_outPtr, ↓eval_bin, ↓eval_compl, ↓eval_conv, ↓eval_bits, ↓eval_len, ↓eval_cap, ↓eval_index, ↓eval_sliceFrom, ↓eval_slice, ↓eval_make, ↓eval_makeCap, ↓eval_makeT, ↓eval_append, ↓eval_call, ↓eval_bytes, ↓index_bytes, ↓index_li16, ↓index_li32, ↓index_li64, ↓index_lu16, ↓index_lu32, ↓index_lu64, ↓index_lf32, ↓index_lf64, ↓index_slices, ↓setIndex_li16, ↓setIndex_li32, ↓setIndex_li64, ↓setIndex_lu16, ↓setIndex_lu32, ↓setIndex_lu64, ↓setIndex_lf32, ↓setIndex_lf64, ↓makeT_i16, ↓makeT_i32, ↓makeT_i64, ↓makeT_u16, ↓makeT_u32, ↓makeT_u64, ↓makeT_f32, ↓makeT_f64, ↓evals_cons, ↓evals_nil, ↓exec_nil, ↓exec_cons, ↓exec_set, ↓exec_zero, ↓exec_setField, ↓exec_setBuf, ↓exec_setBufAt, ↓exec_setAt, ↓exec_setOut, ↓exec_setOutAt, ↓exec_new, ↓exec_copy, ↓exec_expr, ↓exec_callAddr, ↓exec_ret, ↓exec_retNone, ↓exec_panic, ↓exec_ifs, ↓exec_block, ↓exec_goto, ↓exec_brk, ↓exec_switch, ↓clauses_case, ↓clauses_case8, ↓clauses_default, ↓exec_lock, ↓exec_unlock, ↓exec_rangeVal, ↓exec_rangeIdx, ↓exec_for, ↓prog_defer, ↓execBody_nil, ↓prog_lit_nil, ↓prog_lit_one, ↓prog_make_bind, $ls,*])

/-- Unfolds the model of a v1 or v2 `Buffer` to the same primitives. -/
syntax "prog" (" [" Lean.Parser.Tactic.simpLemma,* "]")? : tactic

macro_rules
  | `(tactic| prog) => `(tactic| prog [])
  | `(tactic| prog [$ls,*]) => `(tactic| simp only [Int64.reduceOfNat, UInt64.reduceOfNat, UInt8.reduceOfNat, decide_eq_true_eq, prog_fail, prog_field, prog_assign, prog_buf, prog_assignBuf, prog_load, prog_store,
    prog_idx, prog_setIdx, prog_reslice, prog_make, prog_makeTyped, prog_append, prog_lock, prog_unlock, prog_makeZero, prog_srcAt, prog_panic, prog_panicIf, prog_locked,
    Prog.bufLoad, Prog.bufStore, bind_assoc, pure_bind, ite_bind', len_mem, conv, shl16_8, shr16_8, shl32_8, shr32_8, shl32_16, shr32_16, shl32_24, shr32_24, shl64_1, shl64_8, shr64_8, shl64_16, shr64_16, shl64_24, shr64_24, shl64_32, shr64_32, shl64_40, shr64_40, shl64_48, shr64_48, shl64_56, shr64_56, shlI16_8, shrI16_8, shlI32_8, shrI32_8, shlI32_16, shrI32_16, shlI32_24, shrI32_24, shlI64_8, shrI64_8, shlI64_16, shrI64_16, shlI64_24, shrI64_24, shlI64_32, shrI64_32, shlI64_40, shrI64_40, shlI64_48, shrI64_48, shlI64_56, shrI64_56, byte_UInt16, byte_UInt32, byte_UInt64, byte_Int16, byte_Int32, byte_Int64, ofByte_UInt16, ofByte_UInt32, ofByte_UInt64, ofByte_Int16, ofByte_Int32, ofByte_Int64, $ls,*])

/-- Two programs that start alike. -/
macro "downp" : tactic => `(tactic| repeat' first
  | with_reducible rfl
  | with_reducible refine bind_congr fun _ => ?_
  | with_reducible refine congrArg Prog.deferUnlock ?_
  | with_reducible refine ite_congr rfl (fun _ => ?_) (fun _ => ?_))

end Crunch.Src
