import Verif.Props.Streams
import Verif.Props.SourceV3

/-!
# The programs under /repo/examples (C88)

Each of the three programs makes an empty buffer, grows it, writes at the byte offset, prints the bytes and, in two of
them, seeks to the start and reads back what it wrote.  Here that is done with any sequence of typed messages, or any
bytes, in place of the literals of the programs.  Printing is in `Props/Program.lean`.
-/

namespace Crunch.V3
open Spec

/-- The calls of /repo/examples/floating-point/main.go:21-34 and /repo/examples/signed-integers/main.go:21-33 on the
new buffer, for any messages. -/
def exampleCalls (ms : List Msg) : List Op :=
  .grow (Int64.ofNat (streamSize ms)) :: (ms.map Msg.write ++ .bytes :: .seekByte 0 false :: ms.map Msg.read)

theorem execAll_append (a b : List Op) (s : St) :
    execAll (a ++ b) s = ((execAll a s).1 ++ (execAll b (execAll a s).2).1, (execAll b (execAll a s).2).2) := by
  induction a generalizing s with
  | nil => rfl
  | cons op a ih => simp only [List.cons_append, execAll, ih]

theorem new_empty (s : St) : Buffer.NewBuffer [] s = (.ok (), emptyAt s.mem) := by
  show Buffer.Refresh (emptyAt s.mem) = _
  rw [buffer_refresh_run]; rfl

theorem abs_emptyAt (m : Heap) : abs (emptyAt m) = { data := [], spare := [], cur := 0, bcur := 0 } := by
  have hb := (emptyAt_built m).view
  unfold abs
  rw [hb]
  show (⟨_, ((m.alloc []).window ⟨m.arrays.length, 0, 0, 0⟩).drop 0, _, _⟩ : Ref.Ref) = _
  simp [Heap.window, emptyAt]

/-- `NewBuffer()` and `Grow(n)`: a buffer of `n` zero bytes, both offsets 0. -/
theorem new_grow (m : Heap) (n : Nat) (hn : 2 * n ≤ maxAlloc) :
    ∃ s2, exec (.grow (Int64.ofNat n)) (emptyAt m) = (.ok .unit, s2) ∧ StepOK (emptyAt m) (.grow (Int64.ofNat n)) (.ok .unit, s2) ∧
      s2.b.off = 0 ∧ s2.bytes = List.replicate n 0 := by
  have hM := maxAlloc_lt
  have hb := emptyAt_built m
  have h1 := step_ok (s := emptyAt m) ⟨hb.ok, rfl, rfl⟩ (.grow (Int64.ofNat n)) trivial
  have hnn : (Int64.ofNat n).toInt = n := toInt_ofNat (by omega)
  have hstep : Ref.step (.grow n) { data := [], spare := [], cur := 0, bcur := 0 } =
      (.ok .unit, (Ref.step (.grow n) { data := [], spare := [], cur := 0, bcur := 0 }).2) ∧
      (Ref.step (.grow n) { data := [], spare := [], cur := 0, bcur := 0 }).2.data = List.replicate n 0 ∧
      (Ref.step (.grow n) { data := [], spare := [], cur := 0, bcur := 0 }).2.cur = 0 := by
    unfold Ref.step
    simp only [List.length_nil]
    rw [if_neg (by omega)]
    by_cases h0 : n = 0
    · subst h0; exact ⟨rfl, rfl, rfl⟩
    · rw [if_neg (by omega), if_pos (by omega)]
      exact ⟨rfl, by simp, rfl⟩
  have hr := h1.result
  have hs := h1.state
  have hl : (Op.grow (Int64.ofNat n)).lower (emptyAt m).mem = .grow n := by show Ref.Op.grow _ = _; rw [hnn]
  rw [hl, abs_emptyAt] at hr hs
  rw [hstep.1] at hr
  rcases hx : exec (.grow (Int64.ofNat n)) (emptyAt m) with ⟨r, s2⟩
  rw [hx] at hr hs h1
  have hu : r = .ok .unit := by
    rcases r with v | p
    · cases v <;> first | rfl | cases hr
    · cases hr
  subst hu
  refine ⟨s2, rfl, h1, ?_, ?_⟩
  · have := congrArg Ref.Ref.cur hs
    rw [hstep.2.2] at this
    exact Int64.toInt_inj.mp this
  · have := congrArg Ref.Ref.data hs
    rw [hstep.2.1] at this
    exact this

/-- C88: on a new buffer, grown to the size of the messages, the messages are written one after the other, `Bytes` is
then exactly their encoding, and after seeking to 0 they are all read back. -/
theorem C88_typed_examples (s : St) (ms : List Msg) (hne : ∀ m ∈ ms, m.data ≠ []) (hfit : 2 * streamSize ms ≤ maxAlloc) :
    ∃ s1 s2 t, Buffer.NewBuffer [] s = (.ok (), s1) ∧
      execAll (exampleCalls ms) s1 =
        (.ok .unit :: (ms.map (fun _ => .ok .unit) ++ .ok (.slice t) :: .ok .unit :: ms.map fun m => .ok (.typed m.k m.data)), s2) ∧
      s2.mem.view t = ms.flatMap fun m => m.data.flatMap fun x => encode m.e m.k.size (m.k.pat x) := by
  obtain ⟨s2, e1, h1, ho, hb⟩ := new_grow s.mem (streamSize ms) hfit
  have hlen : s2.bytes.length = streamSize ms := by rw [hb, List.length_replicate]
  have w := h1.wf
  obtain ⟨s3, r1, r2, r3⟩ := C39_message_stream w ms hne (by rw [ho]; decide) (by rw [ho, hlen]; simp)
  obtain ⟨s3', q1, _, _, _, q5⟩ := write_stream w ms hne (by rw [ho]; decide)
    (by rw [ho, ← length_bytes w.ok, hlen]; simp)
  rw [r1] at q1
  cases q1
  refine ⟨emptyAt s.mem, s3, s3.b.buf, new_empty s, ?_, ?_⟩
  · rw [ho] at r3
    show (_ :: _, _) = (_ :: _, _)
    rw [e1, execAll_append, r1]
    show (_ :: (_ ++ _ :: (execAll (.seekByte 0 false :: ms.map Msg.read) s3).1), (execAll (.seekByte 0 false :: ms.map Msg.read) s3).2) = _
    rw [r3]; rfl
  · show s3.bytes = _
    have hl2 := length_stream ms
    rw [q5, ho, hb]
    unfold patch
    rw [show (0 : Int64).toInt.toNat = 0 from rfl, hl2]
    rw [List.take_zero, List.nil_append, List.drop_of_length_le (by simp), List.append_nil]
    rfl

/-- C88: the same with raw bytes, as in /repo/examples/helloworld/main.go:11-21. -/
theorem C88_bytes_example (s : St) (src : Slice) (hs : SliceOK s.mem src) (hfit : 2 * src.len ≤ maxAlloc) :
    ∃ s1 s2 t, Buffer.NewBuffer [] s = (.ok (), s1) ∧
      execAll [.grow (Int64.ofNat src.len), .writeBytes none src, .bytes] s1 = ([.ok .unit, .ok .unit, .ok (.slice t)], s2) ∧
      s2.mem.view t = s.mem.view src := by
  obtain ⟨s2, e1, h1, ho, hb⟩ := new_grow s.mem src.len hfit
  have hE : Extends s.mem s2.mem := by
    refine (emptyAt_built s.mem).ext.trans ⟨h1.iso.more, fun a ha => List.ext_getElem? fun i => h1.iso.outside a i ha ?_⟩
    exact .inr (.inr (Nat.zero_le _))
  have w : WF s2 := h1.wf
  have hb2 := length_bytes w.ok
  rw [hb, List.length_replicate] at hb2
  have hv := hE.view_ok hs
  have hl := length_view hs
  have hrun := buffer_writeBytes_run w s2.b.off src hs.len_le_max
  rw [if_pos ⟨by rw [ho]; decide, by rw [ho, ← hb2]; simp⟩, ho, hv] at hrun
  refine ⟨emptyAt s.mem, { s2.write 0 (s.mem.view src) with b := { (s2.write 0 (s.mem.view src)).b with off := 0 + Int64.ofNat src.len } },
    s2.b.buf, new_empty s, ?_, ?_⟩
  · have hex : exec (.writeBytes none src) s2 = (.ok .unit,
        { s2.write 0 (s.mem.view src) with b := { (s2.write 0 (s.mem.view src)).b with off := 0 + Int64.ofNat src.len } }) := by
      simp only [exec, wrapVal_run, writeBytesNext_run, ho, hrun, advance]
      rw [show (s2.write (0 : Int64).toInt.toNat (s.mem.view src)).b.off = 0 from ho]
      rfl
    simp only [execAll, e1, hex]
    rfl
  · show (s2.write 0 (s.mem.view src)).bytes = _
    rw [bytes_write w.ok (by omega), hb]
    unfold patch
    rw [List.take_zero, List.nil_append, List.drop_of_length_le (by simp; omega), List.append_nil]

/-- The memory of a program that has just started. -/
def blank : St := { mem := { arrays := [], slack := fun _ _ => 0 }, b := { buf := ⟨0, 0, 0, 0⟩, off := 0, cap := 0, boff := 0, bcap := 0 } }

/-- /repo/examples/signed-integers/main.go:11-33: `WriteI32LENext([]int32{-42, 69})` and `ReadI32LENext(2)`. -/
example : ∃ s1 s2 t, Buffer.NewBuffer [] blank = (.ok (), s1) ∧
    execAll [.grow 8, .write .i32 .le none [-42, 69], .bytes, .seekByte 0 false, .read .i32 .le none 2] s1 =
      ([.ok .unit, .ok .unit, .ok (.slice t), .ok .unit, .ok (.typed .i32 [-42, 69])], s2) ∧
    s2.mem.view t = [0xd6, 0xff, 0xff, 0xff, 0x45, 0, 0, 0] :=
  C88_typed_examples blank [⟨.i32, .le, [-42, 69]⟩]
    (by intro m hm; rw [List.mem_singleton.mp hm]; intro h; exact absurd (congrArg List.length h) (by decide)) (by decide)

/-- /repo/examples/floating-point/main.go:11-34: the bit patterns are those of 69.0, -21.0, -42.42 and 3.621. -/
example : ∃ s1 s2 t, Buffer.NewBuffer [] blank = (.ok (), s1) ∧
    execAll [.grow 32, .write .f64 .be none [⟨0x4051400000000000⟩, ⟨0xc035000000000000⟩, ⟨0xc04535c28f5c28f6⟩, ⟨0x400cf7ced916872b⟩],
        .bytes, .seekByte 0 false, .read .f64 .be none 4] s1 =
      ([.ok .unit, .ok .unit, .ok (.slice t), .ok .unit,
        .ok (.typed .f64 [⟨0x4051400000000000⟩, ⟨0xc035000000000000⟩, ⟨0xc04535c28f5c28f6⟩, ⟨0x400cf7ced916872b⟩])], s2) ∧
    s2.mem.view t = [0x40, 0x51, 0x40, 0, 0, 0, 0, 0, 0xc0, 0x35, 0, 0, 0, 0, 0, 0,
      0xc0, 0x45, 0x35, 0xc2, 0x8f, 0x5c, 0x28, 0xf6, 0x40, 0x0c, 0xf7, 0xce, 0xd9, 0x16, 0x87, 0x2b] :=
  C88_typed_examples blank [⟨.f64, .be, [⟨0x4051400000000000⟩, ⟨0xc035000000000000⟩, ⟨0xc04535c28f5c28f6⟩, ⟨0x400cf7ced916872b⟩]⟩]
    (by intro m hm; rw [List.mem_singleton.mp hm]; intro h; exact absurd (congrArg List.length h) (by decide)) (by decide)

/-- /repo/examples/helloworld/main.go:11-21: the slice `[]byte("hello, world")` is array 0. -/
example : ∃ s1 s2 t, Buffer.NewBuffer [] { blank with mem := blank.mem.alloc (str% "hello, world") } = (.ok (), s1) ∧
    execAll [.grow 12, .writeBytes none ⟨0, 0, 12, 12⟩, .bytes] s1 = ([.ok .unit, .ok .unit, .ok (.slice t)], s2) ∧
    s2.mem.view t = str% "hello, world" :=
  C88_bytes_example { blank with mem := blank.mem.alloc (str% "hello, world") } ⟨0, 0, 12, 12⟩
    ⟨by decide, by decide, by decide⟩ (by decide)

end Crunch.V3

namespace Crunch.Src
open Spec

/-- The calls of a program, each run from the text, with the values it is given. -/
def textVals (p : Pkg) (fuel depth : Nat) : List V3.Op → V3.St → List (Res V) × V3.St
  | [], s => ([], s)
  | op :: ops, s =>
    let r := p.callBuf fuel depth (goName op) (goArgs op) (s, .unit)
    (r.1 :: (textVals p fuel depth ops r.2.1).1, (textVals p fuel depth ops r.2.1).2)

theorem textVals_eq {funs : List Fun} {fuel depth : Nat}
    (hcall : ∀ op, Fits op → ∀ (s : V3.St) (v : V), (⟨funs, V3Buffer.errs⟩ : Pkg).callBuf fuel depth (goName op) (goArgs op) (s, v) =
      (goRes (V3.exec op s).1, ((V3.exec op s).2, v)))
    (ops : List V3.Op) (ho : ∀ op ∈ ops, Fits op) (s : V3.St) :
    textVals ⟨funs, V3Buffer.errs⟩ fuel depth ops s = ((V3.execAll ops s).1.map goRes, (V3.execAll ops s).2) := by
  induction ops generalizing s with
  | nil => rfl
  | cons op ops ih =>
    simp only [textVals, hcall op (ho op (List.mem_cons_self ..)), ih fun o h => ho o (List.mem_cons_of_mem _ h)]
    rfl

/-- C88 from the text of v3/buffer.generated.go: the constructor and every call. -/
theorem C88_typed_examples_text :
    ∃ funs, compileAll V3Buffer.text = some funs ∧
    ∀ (fuel depth : Nat), 2 ^ 64 < fuel → 3 ≤ depth → ∀ (s : V3.St) (ms : List V3.Msg), (∀ m ∈ ms, m.data ≠ []) →
    2 * V3.streamSize ms ≤ maxAlloc →
    ∃ s1 s2 t, (⟨funs, V3Buffer.errs⟩ : Pkg).callBuf fuel depth (str% "NewBuffer") [.slices []] (s, .unit) = (.ok .unit, (s1, .unit)) ∧
      textVals ⟨funs, V3Buffer.errs⟩ fuel depth (V3.exampleCalls ms) s1 =
        (.ok .unit :: (ms.map (fun _ => .ok .unit) ++ .ok (.bytes (.mem t)) :: .ok .unit ::
          ms.map fun m => .ok (goList m.k m.data)), s2) ∧
      s2.mem.view t = ms.flatMap fun m => m.data.flatMap fun x => encode m.e m.k.size (m.k.pat x) := by
  obtain ⟨funs, hc, hcall⟩ := C81_buffer_text
  obtain ⟨funs', hc', hnew⟩ := C81_constructor_text
  rw [hc] at hc'
  cases hc'
  refine ⟨funs, hc, fun fuel depth hf hd s ms hne hfit => ?_⟩
  obtain ⟨s1, s2, t, e1, e2, e3⟩ := V3.C88_typed_examples s ms hne hfit
  refine ⟨s1, s2, t, ?_, ?_, e3⟩
  · rw [hnew fuel depth hf hd [] (by decide) s .unit]
    unfold V3.wrapVal
    rw [bind_run, e1]; rfl
  · rw [textVals_eq (hcall fuel depth hf hd) _ ?_, e2]
    · simp only [List.map_cons, List.map_append, List.map_map]
      rfl
    · intro op ho
      simp only [V3.exampleCalls, List.mem_cons, List.mem_append, List.mem_map] at ho
      rcases ho with rfl | ⟨m, _, rfl⟩ | rfl | rfl | ⟨m, _, rfl⟩ <;> trivial

/-- C88 from the text, with raw bytes. -/
theorem C88_bytes_example_text :
    ∃ funs, compileAll V3Buffer.text = some funs ∧
    ∀ (fuel depth : Nat), 2 ^ 64 < fuel → 3 ≤ depth → ∀ (s : V3.St) (src : Slice), SliceOK s.mem src → 2 * src.len ≤ maxAlloc →
    ∃ s1 s2 t, (⟨funs, V3Buffer.errs⟩ : Pkg).callBuf fuel depth (str% "NewBuffer") [.slices []] (s, .unit) = (.ok .unit, (s1, .unit)) ∧
      textVals ⟨funs, V3Buffer.errs⟩ fuel depth [.grow (Int64.ofNat src.len), .writeBytes none src, .bytes] s1 =
        ([.ok .unit, .ok .unit, .ok (.bytes (.mem t))], s2) ∧
      s2.mem.view t = s.mem.view src := by
  obtain ⟨funs, hc, hcall⟩ := C81_buffer_text
  obtain ⟨funs', hc', hnew⟩ := C81_constructor_text
  rw [hc] at hc'
  cases hc'
  refine ⟨funs, hc, fun fuel depth hf hd s src hs hfit => ?_⟩
  obtain ⟨s1, s2, t, e1, e2, e3⟩ := V3.C88_bytes_example s src hs hfit
  refine ⟨s1, s2, t, ?_, ?_, e3⟩
  · rw [hnew fuel depth hf hd [] (by decide) s .unit]
    unfold V3.wrapVal
    rw [bind_run, e1]; rfl
  · rw [textVals_eq (hcall fuel depth hf hd) _ ?_, e2]
    · rfl
    · intro op ho
      simp only [List.mem_cons, List.not_mem_nil, or_false] at ho
      rcases ho with rfl | rfl | rfl <;> trivial

end Crunch.Src
