import Verif.Lemmas.ConcMap
import Verif.Lemmas.Progress
import Verif.Race

/-!
What is said of goroutines that run programs with the same steps carries over from one to the other.
-/

namespace Crunch

variable {O V W : Type} {ex : O → Prog V} {ex' : O → Prog W} {allowed : O → Prop} {g : V → W}

theorem exec_model (hx : ∀ op, allowed op → ex' op = (ex op).map g) {c0' c' : Conf O W} {τ' : Trace O W} (q : Quiet c0')
    (e : Exec ex' allowed c0' τ' c') :
    ∃ c0 τ c, Quiet c0 ∧ c0.sh = c0'.sh ∧ Exec ex allowed c0 τ c ∧ τ' = Trace.map g τ ∧ c' = c.map g := by
  have h0 : c0' = Conf.map g (⟨fun _ => .idle, c0'.sh⟩ : Conf O V) := by
    obtain ⟨thr, sh⟩ := c0'
    unfold Conf.map
    congr 1
    funext i
    exact q.idle i
  rw [h0] at e
  obtain ⟨τ, c, e, h1, h2⟩ := e.of_map hx
  exact ⟨_, τ, c, ⟨fun _ => rfl, q.free⟩, rfl, e, h1, h2⟩

theorem inside_map (g : V → W) (τ : Trace O V) (i : Nat) : inside (Trace.map g τ) i = inside τ i := by
  unfold inside Trace.map
  rw [List.foldl_map]
  congr 1
  funext b x
  obtain ⟨j, a⟩ := x
  cases a with
  | did e p => cases e <;> rfl
  | _ => rfl

/-- What a part of a trace that ends with a call is the image of. -/
theorem split_map {g : V → W} {τ : Trace O V} {τ1 τ2 : Trace O W} {i : Nat} {op : O} {r : Res W}
    (h : Trace.map g τ = τ1 ++ (i, .finish op r) :: τ2) :
    ∃ t1 r0 t2, τ = t1 ++ (i, .finish op r0) :: t2 ∧ τ1 = Trace.map g t1 ∧ r = r0.map g ∧ τ2 = Trace.map g t2 := by
  unfold Trace.map at h
  rw [List.map_eq_append_iff] at h
  obtain ⟨t1, t, rfl, rfl, h⟩ := h
  rw [List.map_eq_cons_iff] at h
  obtain ⟨x, t2, rfl, hx, rfl⟩ := h
  obtain ⟨j, a⟩ := x
  cases a with
  | finish op' r0 => cases hx; exact ⟨t1, r0, t2, rfl, rfl, rfl, rfl⟩
  | start op' => exact nomatch (congrArg Prod.snd hx : Act.start op' = Act.finish op r)
  | did e p => exact nomatch (congrArg Prod.snd hx : Act.did e (p.map g) = Act.finish op r)

theorem endedInside_map (g : V → W) (τ : Trace O V) : EndedInside (Trace.map g τ) ↔ EndedInside τ := by
  constructor
  · rintro ⟨τ1, i, op, r, τ2, h, hi⟩
    obtain ⟨t1, r0, t2, rfl, rfl, rfl, rfl⟩ := split_map h
    exact ⟨t1, i, op, r0, t2, rfl, by rw [← inside_map g]; exact hi⟩
  · rintro ⟨τ1, i, op, r, τ2, rfl, hi⟩
    exact ⟨Trace.map g τ1, i, op, r.map g, Trace.map g τ2, by simp [Trace.map, Act.map], by rw [inside_map]; exact hi⟩

theorem idle_map (g : V → W) (c : Conf O V) : (∀ i, (c.map g).thr i = .idle) ↔ ∀ i, c.thr i = .idle :=
  ⟨fun h i => Thr.map_idle (h i), fun h i => by show (c.thr i).map g = _; rw [h i]; rfl⟩

theorem Prog.writes_map (g : V → W) (p : Prog V) (s : Sh) (l : Loc) : (p.map g).writes s l ↔ p.writes s l := by
  cases p <;> exact Iff.rfl

theorem Prog.reads_map (g : V → W) (p : Prog V) (s : Sh) (l : Loc) : (p.map g).reads s l ↔ p.reads s l := by
  cases p <;> exact Iff.rfl

theorem aboutToWrite_map (g : V → W) (c : Conf O V) (i : Nat) (l : Loc) : (c.map g).aboutToWrite i l ↔ c.aboutToWrite i l := by
  constructor
  · rintro ⟨op, p, h, hw⟩
    obtain ⟨q, hq, rfl⟩ := Thr.map_busy h
    exact ⟨op, q, hq, (Prog.writes_map g q c.sh l).1 hw⟩
  · rintro ⟨op, p, h, hw⟩
    exact ⟨op, p.map g, by show (c.thr i).map g = _; rw [h]; rfl, (Prog.writes_map g p c.sh l).2 hw⟩

theorem aboutToRead_map (g : V → W) (c : Conf O V) (i : Nat) (l : Loc) : (c.map g).aboutToRead i l ↔ c.aboutToRead i l := by
  constructor
  · rintro ⟨op, p, h, hw⟩
    obtain ⟨q, hq, rfl⟩ := Thr.map_busy h
    exact ⟨op, q, hq, (Prog.reads_map g q c.sh l).1 hw⟩
  · rintro ⟨op, p, h, hw⟩
    exact ⟨op, p.map g, by show (c.thr i).map g = _; rw [h]; rfl, (Prog.reads_map g p c.sh l).2 hw⟩

theorem race_map (g : V → W) (c : Conf O V) (l : Loc) : (c.map g).Race l ↔ c.Race l := by
  unfold Conf.Race
  simp only [aboutToWrite_map, aboutToRead_map]

theorem Res.map_ok {g : V → W} {r : Res V} (h : ∃ v, r = .ok v) : ∃ v, r.map g = .ok v := by
  obtain ⟨v, rfl⟩ := h; exact ⟨g v, rfl⟩

/-- Calls in progress can be finished, in the other form. -/
theorem finish_map (ex : O → Prog V) (ex' : O → Prog W) (g : V → W) {c c1 : Conf O V} {τ1 : Trace O V} (e : Exec ex noCall c τ1 c1) :
    Exec ex' noCall (c.map g) (Trace.map g τ1) (c1.map g) :=
  e.map fun _ h => h.elim

end Crunch
