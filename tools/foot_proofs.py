#!/usr/bin/env python3
"""Writes the proofs of the places the methods of the v3 Buffer and of the MiniBuffers access, from their text
(lean/Verif/Lemmas/V3BufferFoot*.lean, lean/Verif/Lemmas/V3MiniFoot*.lean, lean/Verif/Lemmas/V2MiniFoot*.lean,
lean/Verif/Lemmas/V1MiniFoot.lean, lean/Verif/Lemmas/V1MiniFootCalls.lean)."""
import os

OUT = "/verif/lean/Verif/Lemmas/"
KINDS = [("U16", "UInt16", "lu16", 2), ("U32", "UInt32", "lu32", 4), ("U64", "UInt64", "lu64", 8),
         ("I16", "Int16", "li16", 2), ("I32", "Int32", "li32", 4), ("I64", "Int64", "li64", 8),
         ("F32", "F32", "lf32", 4), ("F64", "F64", "lf64", 8)]

HEAD = "(fuel d : Nat) {%s} {R W : Loc → Prop} {Q : Buf → V → V → Prop} {b : Buf}%s\n    (hs : b.buf.len < 2 ^ 50) (hF : Fields R W) %s :\n    LFoot R W Q b %s (P.call fuel (d + %d) (str%% \"%s\") [%s]) := by\n  rw [call_of (f := fun_%s) (by rfl) (by rfl)]\n  unfold fun_%s\n  srcp\n"


def head(name, params, hyps, args, depth, v="v"):
    vb = " {v : V}" if v == "v" else ""
    p = params if params else "x : Unit"
    h = HEAD % (p, vb, hyps, v, depth, name, args, name, name)
    if not params:
        h = h.replace(" {x : Unit}", "")
    return "theorem foot_%s " % name + h


def write(k, e, checks):
    n, ty, con, size = k
    name = "Write" + n + e
    s = head(name, "off : Int64} {data : List %s" % ty, "(hw : Elems W b off %d data.length) (hq : Q b v .unit)" % size,
             ".i64 off, .%s data" % con, 1)
    if checks:
        s += "  lfsteps hF\n"
    s += """  refine lfoot_bind (lfoot_goto (A := Unit) (fun _ i => [.i64 off, .%s data, .i64 i, .i64 (Crunch.len data)]) (fun _ => v) (fun i => Elem b off %d i)
    ?_ (fun a i => ?_) fuel 0 () ⟨hs, by decide, by decide, .inl rfl⟩)
  · intro i a ha
    srcp
    lfelem ha hF hw ‹_›
    refine lfoot_ite (fun hn => lfoot_pure ⟨rfl, (), rfl, .inl ⟨rfl, ?_⟩⟩) fun _ => lfoot_pure ⟨rfl, (), rfl, .inr rfl⟩
    have e1 : (%d : Int64).toInt = %d := rfl
    have e2 : (%d : Int64).toInt = %d := rfl
    exact (ha.next (by omega) (by omega) hn).1
  · srcp
    exact lfoot_pure hq

""" % (con, size, size - 1, size - 1, size, size)
    return s


def read(k, e, mini):
    n, ty, con, size = k
    name = "Read" + n + e
    fl = n[0] == "F"
    uty, ucon = ("UInt32", "u32") if n == "F32" else ("UInt64", "u64")
    hr = "(hr : Elems R b off %d (max 1 n.toInt)) " % size
    tail = """    have e1 : (%d : Int64).toInt = %d := rfl
    have e2 : (%d : Int64).toInt = %d := rfl
    refine ⟨(ha.next (by omega) (by omega) hn).1, ?_⟩
    rw [Int64.lt_iff_toInt_lt] at hn
    omega
  · srcp
    exact lfoot_pure (hq _)
  · have : (0 : Int64).toInt = 0 := rfl
    omega

""" % (size - 1, size - 1, size, size)
    if not mini:
        s = head(name, "off n : Int64", hr + "(hq : ∀ x, Q b v x)", ".i64 off, .i64 n", 1)
        a, a1, z, r = ("List %s × %s" % (ty, uty), "a.1", "(out, 0)", "(_, _)") if fl else ("List %s" % ty, "a", "out", "_")
        env = "[.i64 off, .i64 n, .%s %s, .i64 i%s]" % (con, a1, ", .%s a.2" % ucon if fl else "")
        out = "fun _ => v"
        s += "  lfsteps hF\n  refine lfoot_makeTyped fun out => ?_\n"
    else:
        s = head(name, "off n : Int64} {o : List %s" % ty, hr + "(hq : ∀ x, Q b (.%s x) .unit)" % con, ".ptr, .i64 off, .i64 n", 1, "(.%s o)" % con)
        a, a1, z, r = ("List %s × %s" % (ty, uty), "a.1", "(o, 0)", "(_, _)") if fl else ("List %s" % ty, "a", "o", "_")
        env = "[.ptr, .i64 off, .i64 n, .i64 i%s]" % (", .%s a.2" % ucon if fl else "")
        out = "fun a => .%s %s" % (con, a1)
    s += """  refine lfoot_bind (lfoot_goto (A := %s) (fun a i => %s) (%s)
    (fun i => Elem b off %d i ∧ i.toInt < max 1 n.toInt) ?_ (fun a i => ?_) fuel 0 %s ⟨⟨hs, by decide, by decide, .inl rfl⟩, ?_⟩)
  · intro i a ⟨ha, hn⟩
    srcp
    lfelem ha hF hr hn
MINI    refine lfoot_ite (fun hn => lfoot_pure ⟨rfl, %s, rfl, .inl ⟨rfl, ?_⟩⟩) fun _ => lfoot_pure ⟨rfl, %s, rfl, .inr rfl⟩
""" % (a, env, out, size, z, r, r) + tail
    s = s.replace("MINI", "    srcp\n    lfelem ha hF hr hn\n" if mini else "")
    return s


def nxt(name, params, hyps, args, call, depth, seek, hq, v="v"):
    s = head(name + "Next", params, hyps + "(hq : ∀ b v x, Q b v x)", args, depth, v)
    s += "  refine lfoot_field (hF.rf _) (lfoot_bind (%s))\n" % call
    s += "  refine lfoot_bind (%s)\n  exact lfoot_pure (hq _ _ _)\n\n" % seek
    return s


def typed(pkg, ks):
    mini = pkg == "V3Mini"
    s = ""
    for k in ks:
        n, ty, con, size = k
        for e in ("LE", "BE"):
            s += write(k, e, not mini)
            s += nxt("Write" + n + e, "data : List %s" % ty, "(hw : Elems W b b.off %d data.length) " % size, ".%s data" % con,
                     "foot_Write%s%s fuel d hs hF hw ?_" % (n, e), 2, "foot_SeekByte fuel d hF fun _ => ?_", "")
            s += read(k, e, mini)
            s += nxt("Read" + n + e, "n : Int64" + ("} {o : List %s" % ty if mini else ""), "(hr : Elems R b b.off %d (max 1 n.toInt)) " % size,
                     (".ptr, " if mini else "") + ".i64 n", "foot_Read%s%s fuel d hs hF hr fun _ => ?_" % (n, e), 2,
                     "foot_SeekByte fuel d hF fun _ => ?_", "", "(.%s o)" % con if mini else "v")
    return s


SEEK = """theorem foot_Seek%(B)s (fuel d : Nat) {off : Int64} {r : Bool} {R W : Loc → Prop} {Q : Buf → V → V → Prop} {b : Buf} {v : V}
    (hF : Fields R W) (hq : ∀ b, Q b v .unit) : LFoot R W Q b v (P.call fuel (d + 1) (str%% "Seek%(B)s") [%(a)s, .bool r]) := by
  rw [call_of (f := fun_Seek%(B)s) (by rfl) (by rfl)]
  unfold fun_Seek%(B)s
  srcp
  refine lfoot_ite (fun _ => ?_) fun _ => ?_
  · lfsteps hF
    exact lfoot_pure (hq _)
  · lfsteps hF
    exact lfoot_pure (hq _)

"""


def allbits():
    parts = {}
    for f in ("ClearAllBits", "SetAllBits", "FlipAllBits"):
        s = head(f, "", ("(hr : ∀ i, i < b.buf.len → R (.byte b.buf.arr (b.buf.off + i))) " if f[0] == "F" else "") +
                  "(hw : ∀ i, i < b.buf.len → W (.byte b.buf.arr (b.buf.off + i))) (hq : Q b v .unit)", "", 1)
        s += "  lfsteps hF\n"
        s += """  refine lfoot_bind (lfoot_goto (A := Unit) (fun _ i => [.i64 i, .i64 _]) (fun _ => v) (fun _ => True) ?_ (fun a i => ?_) fuel 0 () trivial)
  · intro i a _
    srcp
    lfsteps hF
"""
        if f[0] == "F":
            s += "    refine lfoot_load fun h0 h1 => ⟨hr _ (by omega), fun x => ?_⟩\n    lfsteps hF\n"
        s += """    refine lfoot_store fun h0 h1 => ⟨hw _ (by omega), ?_⟩
    exact lfoot_ite (fun hn => lfoot_pure ⟨rfl, (), rfl, .inl ⟨rfl, trivial⟩⟩) fun _ => lfoot_pure ⟨rfl, (), rfl, .inr rfl⟩
  · srcp
    exact lfoot_pure hq

"""
        parts[f] = s
    return "".join(parts.values()), parts


def basic(pkg):
    mini = pkg == "V3Mini"
    s = ""
    for B in ("Byte", "Bit"):
        s += SEEK % {"B": B, "a": ".i64 off"}
        s += (SEEK % {"B": B, "a": ".num n"}).replace("theorem foot_Seek" + B, "theorem foot_Seek%s_num" % B).replace("{off : Int64}", "{n : Nat}")
    # single bits
    ok = "(hq : -8 < off.toInt → off.toInt < 8 * b.buf.len → Q b v .unit)"
    for f in ("SetBit", "ClearBit", "FlipBit"):
        s += head(f, "off : Int64", "(hr : BitsIn R b off.toInt off.toInt) (hw : BitsIn W b off.toInt off.toInt) " + ok, ".i64 off", 1)
        s += "  lfsteps hF\n  refine lfoot_loadBit hr fun h0 h1 x => ?_\n  lfsteps hF\n  exact lfoot_storeBit hw (lfoot_pure (hq h0 h1))\n\n"
        s += nxt(f, "", "(hr : BitsIn R b b.boff.toInt b.boff.toInt) (hw : BitsIn W b b.boff.toInt b.boff.toInt) ", "",
                 "foot_%s fuel d hs hF hr hw fun _ _ => ?_" % f, 2, "foot_SeekBit_num fuel d hF fun _ => ?_", "")
    if mini:
        s += head("ReadBit", "off : Int64", "(hr : BitsIn R b off.toInt off.toInt) (hq : -8 < off.toInt → off.toInt < 8 * b.buf.len → ∀ x, Q b (.u8 x) .unit)",
                  ".ptr, .i64 off", 1)
        s += "  lfsteps hF\n  exact lfoot_loadBit hr fun h0 h1 x => lfoot_getOut (lfoot_putOut (lfoot_pure (hq h0 h1 _)))\n\n"
    else:
        s += head("ReadBit", "off : Int64", "(hr : BitsIn R b off.toInt off.toInt) (hq : -8 < off.toInt → off.toInt < 8 * b.buf.len → ∀ x, Q b v (.u8 x))",
                  ".i64 off", 1)
        s += "  lfsteps hF\n  exact lfoot_loadBit hr fun h0 h1 x => lfoot_pure (hq h0 h1 _)\n\n"
    s += nxt("ReadBit", "", "(hr : BitsIn R b b.boff.toInt b.boff.toInt) ", ".ptr" if mini else "", "foot_ReadBit fuel d hs hF hr fun _ _ _ => ?_", 2,
             "foot_SeekBit_num fuel d hF fun _ => ?_", "")
    # several bits
    rng = "(h%s : BitsIn %s b %s.toInt (%s.toInt + max 1 n.toInt - 1)) "
    close = """    refine lfoot_ite (fun hn => lfoot_pure ⟨rfl, %s, rfl, .inl ⟨rfl, ?_⟩⟩) fun _ => lfoot_pure ⟨rfl, %s, rfl, .inr rfl⟩
    obtain ⟨e1, e2⟩ := ha.next h0 h1 hn
    refine ⟨e1, ?_⟩
    rw [Int64.lt_iff_toInt_lt] at hn
    omega
"""
    end = """  · srcp
    exact lfoot_pure %s
  · have : (0 : Int64).toInt = 0 := rfl
    omega

"""
    s += head("SetBits", "off n : Int64} {data : UInt64", rng % ("r", "R", "off", "off") + rng % ("w", "W", "off", "off") + "(hq : Q b v .unit)",
              ".i64 off, .u64 data, .i64 n", 2)
    s += """  refine lfoot_bind (lfoot_goto (A := Unit) (fun _ i => [.i64 off, .u64 data, .i64 n, .i64 i]) (fun _ => v)
    (fun i => BitElem b off i ∧ i.toInt < max 1 n.toInt) ?_ (fun a i => ?_) fuel 0 () ⟨.start hs, ?_⟩)
  · intro i a ⟨ha, hm⟩
    srcp
    refine lfoot_ite (fun _ => lfoot_bind (foot_ClearBit fuel d hs hF (hr.at ha hm) (hw.at ha hm) fun h0 h1 => ?_))
      fun _ => lfoot_bind (foot_SetBit fuel d hs hF (hr.at ha hm) (hw.at ha hm) fun h0 h1 => ?_)
""" + "".join("    ·" + l[3:] if i == 0 else "  " + l for _ in (0, 1) for i, l in enumerate((close % ("()", "()")).splitlines(True))) + end % "hq"
    s += nxt("SetBits", "n : Int64} {data : UInt64", rng % ("r", "R", "b.boff", "b.boff") + rng % ("w", "W", "b.boff", "b.boff"), ".u64 data, .i64 n",
             "foot_SetBits fuel d hs hF hr hw ?_", 3, "foot_SeekBit fuel (d + 1) hF fun _ => ?_", "")
    if mini:
        s += head("ReadBits", "off n : Int64} {o : UInt64", rng % ("r", "R", "off", "off") + "(hq : ∀ x, Q b (.u64 x) .unit)", ".ptr, .i64 off, .i64 n", 2, "(.u64 o)")
        s += """  refine lfoot_bind (lfoot_goto (A := UInt64 × UInt8) (fun a i => [.ptr, .i64 off, .i64 n, .u8 a.2, .i64 i]) (fun a => .u64 a.1)
    (fun i => BitElem b off i ∧ i.toInt < max 1 n.toInt) ?_ (fun a i => ?_) fuel 0 (o, 0) ⟨.start hs, ?_⟩)
  · intro i a ⟨ha, hm⟩
    srcp
    refine lfoot_withOut (lfoot_bind (foot_ReadBit fuel d hs hF (hr.at ha hm) fun h0 h1 x => lfoot_pure ?_))
    srcp
    refine lfoot_getOut ?_
    srcp
    refine lfoot_getOut (lfoot_putOut ?_)
""" + close % ("(_, _)", "(_, _)") + end % "(hq _)"
        s += nxt("ReadBits", "n : Int64} {o : UInt64", rng % ("r", "R", "b.boff", "b.boff"), ".ptr, .i64 n", "foot_ReadBits fuel d hs hF hr fun _ => ?_", 3,
                 "foot_SeekBit fuel (d + 1) hF fun _ => ?_", "", "(.u64 o)")
    else:
        s += head("ReadBits", "off n : Int64", rng % ("r", "R", "off", "off") + "(hq : ∀ x, Q b v (.u64 x))", ".i64 off, .i64 n", 2)
        s += """  refine lfoot_bind (lfoot_goto (A := UInt64) (fun a i => [.i64 off, .i64 n, .u64 a, .i64 i]) (fun _ => v)
    (fun i => BitElem b off i ∧ i.toInt < max 1 n.toInt) ?_ (fun a i => ?_) fuel 0 0 ⟨.start hs, ?_⟩)
  · intro i a ⟨ha, hm⟩
    srcp
    refine lfoot_bind (foot_ReadBit fuel d hs hF (hr.at ha hm) fun h0 h1 x => ?_)
    srcp
""" + close % ("_", "_") + end % "(hq _)"
        s += nxt("ReadBits", "n : Int64", rng % ("r", "R", "b.boff", "b.boff"), ".i64 n", "foot_ReadBits fuel d hs hF hr fun _ => ?_", 3,
                 "foot_SeekBit fuel (d + 1) hF fun _ => ?_", "")
    s += allbits()[0]
    # bytes
    s += head("WriteBytes", "off : Int64} {data : Slice",
              "(hr : ∀ i, i < data.len → R (.byte data.arr (data.off + i)))\n    (hw : 0 ≤ off.toInt → ∀ i, i < data.len → off.toInt.toNat + i < b.buf.len → W (.byte b.buf.arr (b.buf.off + (off.toInt.toNat + i)))) (hq : Q b v .unit)",
              ".i64 off, .bytes (.mem data)", 1)
    s += "  lfsteps hF\n  exact lfoot_copy hr hw (lfoot_pure hq)\n\n"
    s += nxt("WriteBytes", "data : Slice",
             "(hr : ∀ i, i < data.len → R (.byte data.arr (data.off + i)))\n    (hw : 0 ≤ b.off.toInt → ∀ i, i < data.len → b.off.toInt.toNat + i < b.buf.len → W (.byte b.buf.arr (b.buf.off + (b.off.toInt.toNat + i)))) ",
             ".bytes (.mem data)", "foot_WriteBytes fuel d hs hF hr hw ?_", 2, "foot_SeekByte fuel d hF fun _ => ?_", "")
    if not mini:
        one = "(hc : b.cap.toInt ≤ b.buf.len) (hr : 0 ≤ %s.toInt → %s.toInt < b.buf.len → R (.byte b.buf.arr (b.buf.off + %s.toInt.toNat))) "
        body = """  lfsteps hF
  rename_i h1 h2
  refine lfoot_reslice fun h3 h4 h5 t ha ho hl => ?_
"""
        s += head("ReadBytes_num", "off : Int64} {n : Nat", "(hq : ∀ t : Slice, 0 ≤ off.toInt → (off + Int64.ofNat n).toInt ≤ b.cap.toInt → t.arr = b.buf.arr → t.off = b.buf.off + off.toInt.toNat →\n      t.len = (off + Int64.ofNat n).toInt.toNat - off.toInt.toNat → Q b v (.bytes (.mem t)))", ".i64 off, .num n", 1).replace('"ReadBytes_num"', '"ReadBytes"').replace("fun_ReadBytes_num", "fun_ReadBytes")
        s += body + """  refine lfoot_pure (hq t h3 ?_ ha ho hl)
  have h1 := Int.not_lt.mp fun h => h1 (Int64.lt_iff_toInt_lt.mpr h)
  exact h1

"""
        s += head("ReadByte", "off : Int64", one % ("off", "off", "off") + "(hq : ∀ x, Q b v x)", ".i64 off", 2)
        s += """  refine lfoot_bind (foot_ReadBytes_num fuel d hs hF fun t h0 h1 ha ho hl => ?_)
  srcp
  refine lfoot_load fun h2 h3 => ⟨?_, fun x => lfoot_pure (hq _)⟩
  rw [ha, ho]
  exact hr h0 (by have : (0 : Int64).toInt = 0 := rfl; omega)

"""
        s += nxt("ReadByte", "", one % ("b.off", "b.off", "b.off"), "", "foot_ReadBytes_num fuel d hs hF fun t h0 h1 ha ho hl => ?_", 2, "foot_SeekByte_num fuel d hF fun _ => ?_", "").replace(
            "  refine lfoot_bind (foot_SeekByte", """  srcp
  refine lfoot_load fun h2 h3 => ⟨?_, fun x => ?_⟩
  · rw [ha, ho]
    change 0 ≤ b.off.toInt at h0
    change t.len = (b.off + Int64.ofNat 1).toInt.toNat - b.off.toInt.toNat at hl
    change (b.off + Int64.ofNat 1).toInt ≤ b.cap.toInt at h1
    exact hr h0 (by have : (0 : Int64).toInt = 0 := rfl; omega)
  refine lfoot_bind (foot_SeekByte""")
    return s


def wrap(name, inner, params, hyps, args, call, depth, close, v="v"):
    """The public method that calls the private one."""
    return head(name, params, hyps, args, depth, v) + "  refine lfoot_bind (%s)\n  exact lfoot_pure %s\n\n" % (call, close)


def low(s, name):
    return s.replace(name, name[0].lower() + name[1:])


def typed2(ks):
    s = ""
    for k in ks:
        n, ty, con, size = k
        for e in ("LE", "BE"):
            w, r = "rite" + n + e, "ead" + n + e
            s += low(write(k, e, False), "W" + w)
            s += wrap("W" + w, "w" + w, "off : Int64} {data : List %s" % ty, "(hw : Elems W b off %d data.length) (hq : Q b v .unit)" % size,
                      ".i64 off, .%s data" % con, "foot_w%s fuel d hs hF hw ?_" % w, 2, "hq")
            s += nxt("W" + w, "data : List %s" % ty, "(hw : Elems W b b.off %d data.length) " % size, ".%s data" % con,
                     "foot_w%s fuel d hs hF hw ?_" % w, 2, "foot_seek fuel d hF fun _ => ?_", "")
            s += low(read(k, e, True), "R" + r)
            s += wrap("R" + r, "r" + r, "off n : Int64} {o : List %s" % ty, "(hr : Elems R b off %d (max 1 n.toInt)) (hq : ∀ x, Q b (.%s x) .unit)" % (size, con),
                      ".ptr, .i64 off, .i64 n", "foot_r%s fuel d hs hF hr fun _ => ?_" % r, 2, "(hq _)", "(.%s o)" % con)
            s += nxt("R" + r, "n : Int64} {o : List %s" % ty, "(hr : Elems R b b.off %d (max 1 n.toInt)) " % size, ".ptr, .i64 n",
                     "foot_r%s fuel d hs hF hr fun _ => ?_" % r, 2, "foot_seek fuel d hF fun _ => ?_", "", "(.%s o)" % con)
    return s


def for1(ty, env, out, start, body, hq, a="()"):
    """A `for` loop over bits."""
    return """  refine lfoot_bind (lfoot_for (%s) (%s) (%s) (fun i _ => BitElem b off i) (n := n) ?_ ?_ ?_ (fun a i _ => ?_) fuel 0 %s (.start hs))
  · intro i a k; srcp
  · intro i a k; srcp
  · intro i a ha hn
    have hn' := hn
    rw [Int64.lt_iff_toInt_lt] at hn
    srcp%s    exact lfoot_pure ⟨rfl, %s, rfl, rfl, ha.step h0 h1⟩
  · srcp
    exact lfoot_pure %s

""" % (ty, env, out, start, body, a, hq)


def range1(f, hr):
    """A `range` loop over the content."""
    s = head(f, "", hr + "(hw : ∀ i, i < b.buf.len → W (.byte b.buf.arr (b.buf.off + i))) (hq : Q b v .unit)", "", 1)
    s += """  lfsteps hF
  refine lfoot_bind (lfoot_range (A := V) (fun a => [a]) ?_ (fun a => ?_) fuel 0 .unit)
  · intro i a
    srcp
    lfsteps hF
"""
    if hr:
        s += "    refine lfoot_load fun h0 h1 => ⟨hr _ (by omega), fun x => ?_⟩\n    lfsteps hF\n"
    s += """    exact lfoot_store fun h0 h1 => ⟨hw _ (by omega), lfoot_pure ⟨rfl, rfl, _, rfl⟩⟩
  · srcp
    exact lfoot_pure hq

"""
    return s


def basic2(v=2):
    s = """theorem foot_atob (fuel d : Nat) {x : Bool} {R W : Loc → Prop} {Q : Buf → V → V → Prop} {b : Buf} {v : V} (hq : ∀ x, Q b v (.u8 x)) :
    LFoot R W Q b v (P.call fuel (d + 1) (str% "atob") [.bool x]) := by
  rw [call_of (f := V2Utils.fun_atob) (by rfl) (by rfl)]
  unfold V2Utils.fun_atob
  srcp
  cases x <;> exact lfoot_pure (hq _)

""".replace("V2", "V%d" % v)
    for B, c in (("Byte", "seek"), ("Bit", "seekbit")):
        a = SEEK % {"B": B, "a": ".i64 off"}
        s += a.replace("Seek" + B, c)
        a = (SEEK % {"B": B, "a": ".num n"}).replace("theorem foot_Seek" + B, "theorem foot_Seek%s_num" % B).replace("{off : Int64}", "{n : Nat}")
        s += a.replace("Seek" + B, c)
    one = "(hr : BitsIn R b %s.toInt %s.toInt) (hw : BitsIn W b %s.toInt %s.toInt) "
    ok = "(hq : -8 < off.toInt → off.toInt < 8 * b.buf.len → Q b v .unit)"
    s += head("setbit", "off : Int64} {x : UInt8", one % (("off",) * 4) + ok, ".i64 off, .u8 x", 1)
    s += """  refine lfoot_ite (fun _ => ?_) fun _ => lfoot_ite (fun _ => ?_) fun _ => lfoot_fail
  · lfsteps hF
    refine lfoot_loadBit hr fun h0 h1 x => ?_
    lfsteps hF
    exact lfoot_storeBit hw (lfoot_pure (hq h0 h1))
  · lfsteps hF
    refine lfoot_loadBit hr fun h0 h1 x => ?_
    lfsteps hF
    exact lfoot_storeBit hw (lfoot_pure (hq h0 h1))

"""
    s += wrap("SetBit", "", "off : Int64} {x : UInt8", one % (("off",) * 4) + "(hq : Q b v .unit)", ".i64 off, .u8 x", "foot_setbit fuel d hs hF hr hw fun _ _ => ?_", 2, "hq")
    s += nxt("SetBit", "x : UInt8", one % (("b.boff",) * 4), ".u8 x", "foot_setbit fuel d hs hF hr hw fun _ _ => ?_", 2, "foot_seekbit_num fuel d hF fun _ => ?_", "")
    s += head("flipbit", "off : Int64", one % (("off",) * 4) + ok, ".i64 off", 1)
    s += "  lfsteps hF\n  refine lfoot_loadBit hr fun h0 h1 x => ?_\n  lfsteps hF\n  exact lfoot_storeBit hw (lfoot_pure (hq h0 h1))\n\n"
    s += wrap("FlipBit", "", "off : Int64", one % (("off",) * 4) + "(hq : Q b v .unit)", ".i64 off", "foot_flipbit fuel d hs hF hr hw fun _ _ => ?_", 2, "hq")
    s += nxt("FlipBit", "", one % (("b.boff",) * 4), "", "foot_flipbit fuel d hs hF hr hw fun _ _ => ?_", 2, "foot_seekbit_num fuel d hF fun _ => ?_", "")
    s += head("readbit", "off : Int64", "(hr : BitsIn R b off.toInt off.toInt) (hq : -8 < off.toInt → off.toInt < 8 * b.buf.len → ∀ x, Q b (.u8 x) .unit)",
              ".ptr, .i64 off", 2)
    s += "  lfsteps hF\n  refine lfoot_loadBit hr fun h0 h1 x => lfoot_bind (foot_atob fuel d fun x => ?_)\n  srcp\n  exact lfoot_getOut (lfoot_putOut (lfoot_pure (hq h0 h1 _)))\n\n"
    s += wrap("ReadBit", "", "off : Int64", "(hr : BitsIn R b off.toInt off.toInt) (hq : ∀ x, Q b (.u8 x) .unit)", ".ptr, .i64 off",
              "foot_readbit fuel d hs hF hr fun _ _ _ => ?_", 3, "(hq _)")
    s += nxt("ReadBit", "", "(hr : BitsIn R b b.boff.toInt b.boff.toInt) ", ".ptr", "foot_readbit fuel d hs hF hr fun _ _ _ => ?_", 3,
             "foot_seekbit_num fuel (d + 1) hF fun _ => ?_", "")
    rng = "(h%s : BitsIn %s b %s.toInt (%s.toInt + max 1 n.toInt - 1)) "
    if v == 1:
        rng = rng.replace("max 1 n", "n").replace(" : BitsIn", " : 0 < n.toInt → BitsIn")
    close = """    refine lfoot_ite (fun hn => lfoot_pure ⟨rfl, %s, rfl, .inl ⟨rfl, ?_⟩⟩) fun _ => lfoot_pure ⟨rfl, %s, rfl, .inr rfl⟩
    obtain ⟨e1, e2⟩ := ha.next h0 h1 hn
    refine ⟨e1, ?_⟩
    rw [Int64.lt_iff_toInt_lt] at hn
    omega
"""
    end = """  · srcp
    exact lfoot_pure %s
  · have : (0 : Int64).toInt = 0 := rfl
    omega

"""
    rw = rng % ("r", "R", "off", "off") + rng % ("w", "W", "off", "off")
    rwn = rng % ("r", "R", "b.boff", "b.boff") + rng % ("w", "W", "b.boff", "b.boff")
    s += head("setbits", "off n : Int64} {data : UInt64", rw + "(hq : Q b v .unit)", ".i64 off, .u64 data, .i64 n", 2)
    s += for1("A := Unit", "fun _ i => [.i64 off, .u64 data, .i64 n, .i64 i]", "fun _ => v", "()", """
    have n0 := Int.lt_of_le_of_lt ha.hi hn
    refine lfoot_bind (foot_setbit fuel d hs hF ((hr n0).at ha hn) ((hw n0).at ha hn) fun h0 h1 => ?_)
""", "hq") if v == 1 else """  refine lfoot_bind (lfoot_goto (A := Unit) (fun _ i => [.i64 off, .u64 data, .i64 n, .i64 i]) (fun _ => v)
    (fun i => BitElem b off i ∧ i.toInt < max 1 n.toInt) ?_ (fun a i => ?_) fuel 0 () ⟨.start hs, ?_⟩)
  · intro i a ⟨ha, hm⟩
    srcp
    refine lfoot_bind (foot_setbit fuel d hs hF (hr.at ha hm) (hw.at ha hm) fun h0 h1 => ?_)
""" + close % ("()", "()") + end % "hq"
    s += wrap("SetBits", "", "off n : Int64} {data : UInt64", rw + "(hq : Q b v .unit)", ".i64 off, .u64 data, .i64 n", "foot_setbits fuel d hs hF hr hw ?_", 3, "hq")
    s += nxt("SetBits", "n : Int64} {data : UInt64", rwn, ".u64 data, .i64 n", "foot_setbits fuel d hs hF hr hw ?_", 3, "foot_seekbit fuel (d + 1) hF fun _ => ?_", "")
    s += head("readbits", "off n : Int64} {o : UInt64", rng % ("r", "R", "off", "off") + "(hq : ∀ x, Q b (.u64 x) .unit)", ".ptr, .i64 off, .i64 n", 3, "(.u64 o)")
    s += for1("A := UInt64 × UInt8", "fun a i => [.ptr, .i64 off, .i64 n, .u8 a.2, .i64 i]", "fun a => .u64 a.1", "(o, 0)", """
    have n0 := Int.lt_of_le_of_lt ha.hi hn
    refine lfoot_withOut (lfoot_bind (foot_readbit fuel d hs hF ((hr n0).at ha hn) fun h0 h1 x => lfoot_pure ?_))
    srcp
    refine lfoot_getOut ?_
    srcp
    refine lfoot_getOut (lfoot_putOut ?_)
""", "(hq _)", "(_, _)") if v == 1 else """  refine lfoot_bind (lfoot_goto (A := UInt64 × UInt8) (fun a i => [.ptr, .i64 off, .i64 n, .u8 a.2, .i64 i]) (fun a => .u64 a.1)
    (fun i => BitElem b off i ∧ i.toInt < max 1 n.toInt) ?_ (fun a i => ?_) fuel 0 (o, 0) ⟨.start hs, ?_⟩)
  · intro i a ⟨ha, hm⟩
    srcp
    refine lfoot_withOut (lfoot_bind (foot_readbit fuel d hs hF (hr.at ha hm) fun h0 h1 x => lfoot_pure ?_))
    srcp
    refine lfoot_getOut ?_
    srcp
    refine lfoot_getOut (lfoot_putOut ?_)
""" + close % ("(_, _)", "(_, _)") + end % "(hq _)"
    s += wrap("ReadBits", "", "off n : Int64} {o : UInt64", rng % ("r", "R", "off", "off") + "(hq : ∀ x, Q b (.u64 x) .unit)", ".ptr, .i64 off, .i64 n",
              "foot_readbits fuel d hs hF hr fun _ => ?_", 4, "(hq _)", "(.u64 o)")
    s += nxt("ReadBits", "n : Int64} {o : UInt64", rng % ("r", "R", "b.boff", "b.boff"), ".ptr, .i64 n", "foot_readbits fuel d hs hF hr fun _ => ?_", 4,
             "foot_seekbit fuel (d + 2) hF fun _ => ?_", "", "(.u64 o)")
    a, b = allbits()
    for f in ("ClearAllBits", "SetAllBits", "FlipAllBits"):
        hr = "(hr : ∀ i, i < b.buf.len → R (.byte b.buf.arr (b.buf.off + i))) " if f[0] == "F" else ""
        s += b[f].replace(f, f.lower()) if v == 2 else range1(f.lower(), hr)
        s += wrap(f, "", "", hr + "(hw : ∀ i, i < b.buf.len → W (.byte b.buf.arr (b.buf.off + i))) (hq : Q b v .unit)", "",
                  "foot_%s fuel d hs hF %shw ?_" % (f.lower(), "hr " if hr else ""), 2, "hq")
    cp = "(hr : ∀ i, i < data.len → R (.byte data.arr (data.off + i)))\n    (hw : Elems W b %s 1 data.len) "
    s += head("write", "off : Int64} {data : Slice", cp % "off" + "(hq : Q b v .unit)", ".i64 off, .bytes (.mem data)", 1)
    s += """  refine lfoot_bind (lfoot_goto (A := Unit) (fun _ i => [.i64 off, .bytes (.mem data), .i64 i, .i64 _]) (fun _ => v) (fun i => Elem b off 1 i)
    ?_ (fun a i => ?_) fuel 0 () ⟨hs, by decide, by decide, .inl rfl⟩)
  · intro i a ha
    srcp
    refine lfoot_load fun h0 h1 => ⟨hr _ (by omega), fun x => lfoot_buf hF.rh ?_⟩
    rw [show off + i = off + i * 1 by rw [Int64.mul_one]]
    refine lfoot_put0 ha hw h1 fun h2 h3 => ?_
    refine lfoot_ite (fun hn => lfoot_pure ⟨rfl, (), rfl, .inl ⟨rfl, ?_⟩⟩) fun _ => lfoot_pure ⟨rfl, (), rfl, .inr rfl⟩
    have e1 : (1 : Int64).toInt = 1 := rfl
    exact (ha.next h2 (by omega) hn).1
  · srcp
    exact lfoot_pure hq

"""
    s += wrap("WriteBytes", "", "off : Int64} {data : Slice", cp % "off" + "(hq : Q b v .unit)", ".i64 off, .bytes (.mem data)", "foot_write fuel d hs hF hr hw ?_", 2, "hq")
    s += nxt("WriteBytes", "data : Slice", cp % "b.off", ".bytes (.mem data)", "foot_write fuel d hs hF hr hw ?_", 2, "foot_seek fuel d hF fun _ => ?_", "")
    return s


def emit(pkg, suffix, doc, imports, body):
    path = OUT + pkg + "Foot" + suffix + ".lean"
    s = "".join("import %s\n" % i for i in imports)
    s += "\n/-! %s  Written by tools/foot_proofs.py. -/\n\nset_option linter.unusedVariables false\n\nnamespace Crunch.Src.%s\nopen V3 (Buf)\n\nattribute [local irreducible] %s\n\n" % (doc, pkg, "Prog.Uses LFoot" if suffix == "Calls" else "LFoot")
    s += body + "end Crunch.Src.%s\n" % pkg
    if not os.path.exists(path) or open(path).read() != s:
        open(path, "w").write(s)


def calls(pkg):
    mini = pkg == "V3Mini"
    out = ""
    micro = "micro_uses_out" if mini else "micro_uses"
    T = "fun _ _ _ => trivial"

    def arm(pat, lemma, d, args, reads=False):
        return "  | %s, _, _ => exact %s (foot_%s fuel %s %s)\n" % (
            pat, micro if reads else "micro_uses", lemma, "(d + %d)" % (3 - d) if d < 3 else "d", args)

    for k in KINDS:
        n, ty, con, size = k
        for e in ("le", "be"):
            E = e.upper()
            out += arm(".write .%s .%s (some o) data" % (n.lower(), e), "Write" + n + E, 1, "hs.small fieldsAt (elemsW rfl) trivial")
            out += arm(".write .%s .%s none data" % (n.lower(), e), "Write" + n + E + "Next", 2, "hs.small fieldsAt (elemsW rfl) (%s)" % T)
            out += arm(".read .%s .%s (some o) n" % (n.lower(), e), "Read" + n + E, 1, "hs.small fieldsAt (elemsR rfl) (fun _ => trivial)", True)
            out += arm(".read .%s .%s none n" % (n.lower(), e), "Read" + n + E + "Next", 2, "hs.small fieldsAt (elemsR rfl) (%s)" % T, True)
    out += arm(".writeBytes (some o) src", "WriteBytes", 1, "hs.small fieldsAt (srcR rfl) (copyW rfl) trivial")
    out += arm(".writeBytes none src", "WriteBytesNext", 2, "hs.small fieldsAt (srcR rfl) (copyW rfl) (%s)" % T)
    if mini:
        out += "  | .readByte p, _, hm => exact nomatch hm\n"
    else:
        out += arm(".readByte (some o)", "ReadByte", 2, "hs.small fieldsAt (Int.le_of_eq hs.cap) (oneR rfl) (fun _ => trivial)")
        out += arm(".readByte none", "ReadByteNext", 2, "hs.small fieldsAt (Int.le_of_eq hs.cap) (oneR rfl) (%s)" % T)
    for c, f in (("set", "SetBit"), ("clear", "ClearBit"), ("flip", "FlipBit")):
        out += arm(".%sBit (some o)" % c, f, 1, "hs.small fieldsAt (bitsR rfl) (bitsW rfl) fun _ _ => trivial")
        out += arm(".%sBit none" % c, f + "Next", 2, "hs.small fieldsAt (bitsR rfl) (bitsW rfl) (%s)" % T)
    out += arm(".readBit (some o)", "ReadBit", 1, "hs.small fieldsAt (bitsR rfl) (%s)" % T, True)
    out += arm(".readBit none", "ReadBitNext", 2, "hs.small fieldsAt (bitsR rfl) (%s)" % T, True)
    out += arm(".readBits (some o) n", "ReadBits", 2, "hs.small fieldsAt (bitsR rfl) (fun _ => trivial)", True)
    out += arm(".readBits none n", "ReadBitsNext", 3, "hs.small fieldsAt (bitsR rfl) (%s)" % T, True)
    out += arm(".setBits (some o) data n", "SetBits", 2, "hs.small fieldsAt (bitsR rfl) (bitsW rfl) trivial")
    out += arm(".setBits none data n", "SetBitsNext", 3, "hs.small fieldsAt (bitsR rfl) (bitsW rfl) (%s)" % T)
    out += arm(".clearAll", "ClearAllBits", 1, "hs.small fieldsAt (allW rfl) trivial")
    out += arm(".setAll", "SetAllBits", 1, "hs.small fieldsAt (allW rfl) trivial")
    out += arm(".flipAll", "FlipAllBits", 1, "hs.small fieldsAt (allR rfl) (allW rfl) trivial")
    for c in ("readBytes _ _", "seekByte _ _", "seekBit _ _", "afterByte _", "afterBit _", "alignByte", "alignBit", "bytes", "byteCapacity", "bitCapacity", "byteOffset", "bitOffset"):
        out += "  | .%s, ha, _ => exact nomatch ha\n" % c
    for c in ("writeByte _ _", "truncateLeft _", "truncateRight _", "grow _", "refresh", "reset"):
        out += "  | .%s, ha, _ => exact nomatch hp\n" % c
    if mini:
        h = "theorem bytes_uses (fuel d : Nat) (o : V3.Outs) (op : V3.Op) (hp : V3.inPlace op = true) {s : Sh} (hs : Sized s.st.b) (ha : V3.accessesMini op .bytes = true)\n    (hm : (V3.miniCall o op).isSome = true) : (microMini P fuel (d + 3) (o, op)).Uses (V3.RdAt s.st.b op) (V3.WrAt s.st.b op) s := by\n"
    else:
        h = "theorem bytes_uses (fuel d : Nat) (op : V3.Op) (hp : V3.inPlace op = true) {s : Sh} (hs : Sized s.st.b) (ha : V3.accesses op .bytes = true)\n    (hm : True) : (microBuf P fuel (d + 3) op).Uses (V3.RdAt s.st.b op) (V3.WrAt s.st.b op) s := by\n"
    return "open V3\n\n" + h + "  match op, ha, hm with\n" + out + "\n"


def calls1():
    out = ""
    T = "fun _ _ _ => trivial"

    def arm(pat, lemma, d, args, reads=False):
        return "  | %s, _, _ => exact rd1 (%s (foot_%s fuel %s %s))\n" % (
            pat, "micro_uses_out" if reads else "micro_uses", lemma, "(d + %d)" % (4 - d) if d < 4 else "d", args)

    any = "fun t e i hi => srcR (by rw [e]; rfl) i hi"
    out += arm(".writeComplex (some o) x w e", "WriteComplex", 3, "hs.small fieldsAt (%s) (onesW rfl) trivial" % any)
    out += arm(".writeComplex none x w e", "WriteComplexNext", 3, "hs.small fieldsAt (%s) (onesW rfl) (%s)" % (any, T))
    for p, n, q in (("(some o)", "", "(fun _ => trivial)"), ("none", "Next", "(%s)" % T)):
        out += "  | .readComplex %s n w e, _, _ => exact micro_uses_out (foot_ReadComplex%s fuel (d + 1) hc fields1 (fun hw x h1 h2 => around1 hw h1 h2) %s)\n" % (p, n, q)
    out += arm(".writeBytes (some o) src", "WriteBytes", 2, "hs.small fieldsAt (srcR rfl) (onesW rfl) trivial")
    out += arm(".writeBytes none src", "WriteBytesNext", 2, "hs.small fieldsAt (srcR rfl) (onesW rfl) (%s)" % T)
    out += "  | .readByte _, _, hm => exact nomatch hm\n  | .writeByte _ _, _, hm => exact nomatch hm\n"
    out += arm(".setBit (some o) x", "SetBit", 2, "hs.small fieldsAt (bitsR rfl) (bitsW rfl) trivial")
    out += arm(".setBit none x", "SetBitNext", 2, "hs.small fieldsAt (bitsR rfl) (bitsW rfl) (%s)" % T)
    out += arm(".flipBit (some o)", "FlipBit", 2, "hs.small fieldsAt (bitsR rfl) (bitsW rfl) trivial")
    out += arm(".flipBit none", "FlipBitNext", 2, "hs.small fieldsAt (bitsR rfl) (bitsW rfl) (%s)" % T)
    out += arm(".readBit (some o)", "ReadBit", 3, "hs.small fieldsAt (bitsR rfl) (fun _ => trivial)", True)
    out += arm(".readBit none", "ReadBitNext", 3, "hs.small fieldsAt (bitsR rfl) (%s)" % T, True)
    out += arm(".readBits (some o) n", "ReadBits", 4, "hs.small fieldsAt (fun h => bitsR (if_neg (Int.not_le.mpr h))) (fun _ => trivial)", True)
    out += arm(".readBits none n", "ReadBitsNext", 4, "hs.small fieldsAt (fun h => bitsR (if_neg (Int.not_le.mpr h))) (%s)" % T, True)
    out += arm(".setBits (some o) data n", "SetBits", 3, "hs.small fieldsAt (fun h => bitsR (if_neg (Int.not_le.mpr h))) (fun h => bitsW (if_neg (Int.not_le.mpr h))) trivial")
    out += arm(".setBits none data n", "SetBitsNext", 3, "hs.small fieldsAt (fun h => bitsR (if_neg (Int.not_le.mpr h))) (fun h => bitsW (if_neg (Int.not_le.mpr h))) (%s)" % T)
    out += arm(".clearAll", "ClearAllBits", 2, "hs.small fieldsAt (allW rfl) trivial")
    out += arm(".setAll", "SetAllBits", 2, "hs.small fieldsAt (allW rfl) trivial")
    out += arm(".flipAll", "FlipAllBits", 2, "hs.small fieldsAt (allR rfl) (allW rfl) trivial")
    for c in ("readBytes _ _", "seek _ _", "seekBit _ _", "after _", "afterBit _", "alignByte", "alignBit", "bytes", "capacity", "bitCapacity", "offset", "bitOffset"):
        out += "  | .%s, ha, _ => exact nomatch ha\n" % c
    for c in ("grow _", "refresh"):
        out += "  | .%s, ha, _ => exact nomatch hp\n" % c
    return """/-- The places with the bytes that a call may read. -/
def Rd1 (b : Buf) (op : V1.Op1) (l : Loc) : Prop :=
  l.part = .bytes → l.content b (V1.bytesOfMini1 b op) ∨ l.around b (V1.complexOf b op) ∨ ∃ t, V1.sourceOf1 op = some t ∧ l.of t

theorem rd1 {p : Prog V} {s : Sh} {op : V1.Op1} (u : p.Uses (RdIn s.st.b (V1.bytesOfMini1 s.st.b op) (V1.sourceOf1 op)) (WrIn s.st.b (V1.bytesOfMini1 s.st.b op)) s) :
    p.Uses (Rd1 s.st.b op) (WrIn s.st.b (V1.bytesOfMini1 s.st.b op)) s := u.mono (fun _ h hb => (h hb).imp id .inr) fun _ h => h

theorem fields1 {b : Buf} {op : V1.Op1} {r : Int × Int} : Fields (Rd1 b op) (WrIn b r) := fun _ h => ⟨fun h' => absurd h' h, fun h' => absurd h' h⟩

theorem around1 {b : Buf} {p : Option Int64} {n w : Int64} {e : V1.ByteOrder} (hw : w ≠ V1.Unsigned8) {x : Nat} (h1 : V2.byteAt b p ≤ x)
    (h2 : x < V2.byteAt b p + n.toInt * w.toInt) : Rd1 b (.readComplex p n w e) (.byte b.buf.arr (b.buf.off + x)) :=
  fun _ => .inr (.inl ⟨x, by rw [V1.complexOf, if_neg hw]; exact h1, by rw [V1.complexOf, if_neg hw]; exact h2, rfl⟩)

theorem bytes_uses (fuel d : Nat) (o : V3.Outs) (a : V1.Any) (op : V1.Op1) (hp : V1.inPlaceMini1 op = true) {s : Sh} (hs : Sized s.st.b) (hc : s.st.b.buf.cap < 2 ^ 50)
    (ha : V1.accessesMini1 op .bytes = true) (hm : (V1.miniCall1 o a op).isSome = true) :
    (microMini1 P fuel (d + 4) (o, a, op)).Uses (Rd1 s.st.b op) (WrIn s.st.b (V1.bytesOfMini1 s.st.b op)) s := by
  match op, ha, hm with
""" + out + "\n"


def calls2():
    out = ""
    T = "fun _ _ _ => trivial"

    def arm(pat, lemma, d, args, reads=False):
        return "  | %s, _, _ => exact %s (foot_%s fuel %s %s)\n" % (
            pat, "micro_uses_out" if reads else "micro_uses", lemma, "(d + %d)" % (4 - d) if d < 4 else "d", args)

    for n, ty, con, size in KINDS[:3]:
        for e in ("le", "be"):
            E = e.upper()
            out += arm(".write .%s .%s (some o) data" % (n.lower(), e), "Write" + n + E, 2, "hs.small fieldsAt (elemsW rfl) trivial")
            out += arm(".write .%s .%s none data" % (n.lower(), e), "Write" + n + E + "Next", 2, "hs.small fieldsAt (elemsW rfl) (%s)" % T)
            out += arm(".read .%s .%s (some o) n" % (n.lower(), e), "Read" + n + E, 2, "hs.small fieldsAt (elemsR rfl) (fun _ => trivial)", True)
            out += arm(".read .%s .%s none n" % (n.lower(), e), "Read" + n + E + "Next", 2, "hs.small fieldsAt (elemsR rfl) (%s)" % T, True)
    out += arm(".writeBytes (some o) src", "WriteBytes", 2, "hs.small fieldsAt (srcR rfl) (onesW rfl) trivial")
    out += arm(".writeBytes none src", "WriteBytesNext", 2, "hs.small fieldsAt (srcR rfl) (onesW rfl) (%s)" % T)
    out += "  | .readByte _, _, hm => exact nomatch hm\n  | .writeByte _ _, _, hm => exact nomatch hm\n"
    out += arm(".setBit (some o) x", "SetBit", 2, "hs.small fieldsAt (bitsR rfl) (bitsW rfl) trivial")
    out += arm(".setBit none x", "SetBitNext", 2, "hs.small fieldsAt (bitsR rfl) (bitsW rfl) (%s)" % T)
    out += arm(".flipBit (some o)", "FlipBit", 2, "hs.small fieldsAt (bitsR rfl) (bitsW rfl) trivial")
    out += arm(".flipBit none", "FlipBitNext", 2, "hs.small fieldsAt (bitsR rfl) (bitsW rfl) (%s)" % T)
    out += arm(".readBit (some o)", "ReadBit", 3, "hs.small fieldsAt (bitsR rfl) (fun _ => trivial)", True)
    out += arm(".readBit none", "ReadBitNext", 3, "hs.small fieldsAt (bitsR rfl) (%s)" % T, True)
    out += arm(".readBits (some o) n", "ReadBits", 4, "hs.small fieldsAt (bitsR rfl) (fun _ => trivial)", True)
    out += arm(".readBits none n", "ReadBitsNext", 4, "hs.small fieldsAt (bitsR rfl) (%s)" % T, True)
    out += arm(".setBits (some o) data n", "SetBits", 3, "hs.small fieldsAt (bitsR rfl) (bitsW rfl) trivial")
    out += arm(".setBits none data n", "SetBitsNext", 3, "hs.small fieldsAt (bitsR rfl) (bitsW rfl) (%s)" % T)
    out += arm(".clearAll", "ClearAllBits", 2, "hs.small fieldsAt (allW rfl) trivial")
    out += arm(".setAll", "SetAllBits", 2, "hs.small fieldsAt (allW rfl) trivial")
    out += arm(".flipAll", "FlipAllBits", 2, "hs.small fieldsAt (allR rfl) (allW rfl) trivial")
    for c in ("readBytes _ _", "seek _ _", "seekBit _ _", "after _", "afterBit _", "alignByte", "alignBit", "bytes", "capacity", "bitCapacity", "offset", "bitOffset"):
        out += "  | .%s, ha, _ => exact nomatch ha\n" % c
    for c in ("grow _", "refresh", "reset"):
        out += "  | .%s, ha, _ => exact nomatch hp\n" % c
    return """theorem bytes_uses (fuel d : Nat) (o : V3.Outs) (op : V2.Op2) (hp : V2.inPlaceMini op = true) {s : Sh} (hs : Sized s.st.b) (ha : V2.accessesMini op .bytes = true)
    (hm : (V2.miniCall o op).isSome = true) :
    (microMini2 P fuel (d + 4) (o, op)).Uses (RdIn s.st.b (V2.bytesOfMini s.st.b op) (V2.sourceOf op)) (WrIn s.st.b (V2.bytesOfMini s.st.b op)) s := by
  match op, ha, hm with
""" + out + "\n"


for pkg, f in (("V3Buffer", "v3/buffer.generated.go"), ("V3Mini", "v3/minibuf.generated.go")):
    emit(pkg, "", "The bytes the methods of %s other than the typed ones access." % f, ["Verif.Lemmas.LFoot"], basic(pkg))
    for i, ks in enumerate((KINDS[:3], KINDS[3:6], KINDS[6:])):
        emit(pkg, str(i + 1), "The bytes the typed methods of %s access." % f, ["Verif.Lemmas.%sFoot" % pkg], typed(pkg, ks))
    emit(pkg, "Calls", "The bytes the methods of %s access." % f, ["Verif.Lemmas.%sFoot%d" % (pkg, i) for i in (1, 2, 3)] + ["Verif.Lemmas.UnlockedFoot"], calls(pkg))
emit("V2Mini", "", "The bytes the methods of v2/minibuf.go other than the typed ones access.", ["Verif.Lemmas.LFoot", "Verif.Src.V2MiniTyped"], basic2())
emit("V2Mini", "1", "The bytes the typed methods of v2/minibuf.go access.", ["Verif.Lemmas.V2MiniFoot"], typed2(KINDS[:3]))
emit("V2Mini", "Calls", "The bytes the methods of v2/minibuf.go access.", ["Verif.Lemmas.V2MiniFoot1", "Verif.Lemmas.UnlockedFoot"], calls2())
emit("V1Mini", "", "The bytes the methods of v1/minibuf.go other than those for complex values access.", ["Verif.Lemmas.LFoot1", "Verif.Src.V1MiniComplex"], basic2(1))
emit("V1Mini", "Calls", "The bytes the methods of v1/minibuf.go access.", ["Verif.Lemmas.V1MiniFootComplex", "Verif.Lemmas.UnlockedFoot"], calls1())
