import Verif.Lemmas.Trace

/-!
# C128: traces
-/

namespace Uavcan.SocketCan
open Can Time Spec

/-! ## C128 -/

/-- C128: whoever reads the output of a program with traces turned on knows which interface received what. -/
def C128_Statement : Prop :=
  ∃ reader : List Char → List (Nat × Nat × Nat), ∀ (ifs : List CIface) (es : List TraceEvent) (d : List (Nat × List FrameT)) (out : List (List Char)),
    (∀ e ∈ es, ValidEvent e) → traceSession ifs es = .ok (d, out) → reader out.flatten = d.flatMap fun p => p.2.map fun f => (p.1, idAndTime f)

/-- C128: turning traces on changes neither what `read` does nor when it is undefined. -/
theorem C128_same_partial (s : CIface) (buf : Vector FrameT FramesLen) (ans : RawAns) (r : RawReadOut) :
    s.read buf ans = .ok r ↔ ∃ out, s.readT buf ans = .ok (r, out) := by
  constructor
  · intro h
    obtain ⟨out, h1, -⟩ := readT_ok s buf ans r h
    exact ⟨out, h1⟩
  · rintro ⟨out, h⟩
    exact readT_ub s buf ans _ h

/-- C128, partial: the output tells identifier and time of every frame delivered, in order, and no others. -/
theorem C128_told_partial (ifs : List CIface) (es : List TraceEvent) (d : List (Nat × List FrameT)) (out : List (List Char)) (hv : ∀ e ∈ es, ValidEvent e)
    (h : traceSession ifs es = .ok (d, out)) : told out.flatten = (d.map Prod.snd).flatten.map idAndTime ∧ ∀ o ∈ out, ∃ t, Line o t := by
  induction es generalizing ifs d out with
  | nil => cases h; exact ⟨rfl, fun o ho => by cases ho⟩
  | cons e es ih =>
    have hv' : ∀ e ∈ es, ValidEvent e := fun e he => hv e (List.mem_cons_of_mem _ he)
    have hone : ∀ (o : List Char) (out : List (List Char)) (t : List (Nat × Nat)), Line o none → told out.flatten = t → told (o :: out).flatten = t := by
      intro o out t ho ht
      exact told_append [o] out [] t (fun o' ho' => by rw [List.mem_singleton.1 ho']; exact ⟨_, ho⟩)
        (told_none [o] fun o' ho' => by rw [List.mem_singleton.1 ho']; exact ho) ht
    cases e with
    | close =>
      unfold traceSession at h
      obtain ⟨⟨d1, o1⟩, h1, h⟩ := bindOk h
      cases h
      obtain ⟨a, b⟩ := ih ifs _ o1 hv' h1
      refine ⟨hone _ _ _ closing_line a, fun o ho => ?_⟩
      rcases List.mem_cons.1 ho with rfl | ho
      · exact ⟨_, closing_line⟩
      · exact b o ho
    | unsupported opt n =>
      unfold traceSession at h
      obtain ⟨⟨d1, o1⟩, h1, h⟩ := bindOk h
      cases h
      obtain ⟨a, b⟩ := ih ifs _ o1 hv' h1
      have hl := notSupported_line opt n (hv _ List.mem_cons_self)
      refine ⟨hone _ _ _ hl a, fun o ho => ?_⟩
      rcases List.mem_cons.1 ho with rfl | ho
      · exact ⟨_, hl⟩
      · exact b o ho
    | read i buf ans =>
      unfold traceSession at h
      cases hi : ifs[i]? with
      | none => rw [hi] at h; exact ih ifs d out hv' h
      | some s =>
        rw [hi] at h
        obtain ⟨⟨r, o1⟩, h1, h⟩ := bindOk h
        obtain ⟨⟨d2, o2⟩, h2, h⟩ := bindOk h
        cases h
        obtain ⟨o1', e1, e2, e3⟩ := readT_ok s buf ans r (readT_ub s buf ans _ h1)
        rw [h1] at e1
        cases e1
        obtain ⟨a, b⟩ := ih _ d2 o2 hv' h2
        refine ⟨?_, fun o ho => ?_⟩
        · rw [told_append o1 o2 _ _ e2 e3 a]
          simp
        · rcases List.mem_append.1 ho with ho | ho
          · exact e2 o ho
          · exact b o ho

/-- C128, partial: traces are the same whichever of two interfaces in the same state reads. -/
theorem C128_which_partial (s : CIface) (buf : Vector FrameT FramesLen) (ans : RawAns) (r : RawReadOut) (h : s.read buf ans = .ok r) :
    ∃ out, traceSession [s, s] [.read 0 buf ans] = .ok ([(0, r.out_frames.toList.take r.read)], out) ∧
      traceSession [s, s] [.read 1 buf ans] = .ok ([(1, r.out_frames.toList.take r.read)], out) := by
  obtain ⟨out, h1, -⟩ := readT_ok s buf ans r h
  refine ⟨out ++ [], ?_, ?_⟩
  · simp only [traceSession, List.getElem?_cons_zero, h1, Outcome.ok_bind, Outcome.pure_eq]
  · simp only [traceSession, List.getElem?_cons_succ, List.getElem?_cons_zero, h1, Outcome.ok_bind, Outcome.pure_eq]

/-- A fresh interface. -/
def exIface : CIface := CIface.mk' 0 "vcan0" 3 (Vector.replicate 4 (Vector.replicate 32 0))
/-- Frames to read into. -/
def exBuf : Vector FrameT FramesLen := Vector.replicate 4 Frame.default
/-- The kernel gives one frame without control data. -/
def exAns : RawAns := ⟨1, 0, [⟨false, ⟨0x80000123#32, 0, 0, 0, 0, Vector.replicate 64 0⟩, ⟨Vector.replicate 32 0, 0⟩⟩]⟩

theorem exRead : ∃ r, exIface.read exBuf exAns = .ok r ∧ (r.out_frames.toList.take r.read).map idAndTime = [(0x80000123, 0)] := by
  have : (exIface.read exBuf exAns).bind (fun r => .ok ((r.out_frames.toList.take r.read).map idAndTime)) = .ok [(0x80000123, 0)] := by decide +kernel
  cases h : exIface.read exBuf exAns with
  | ub u => rw [h] at this; cases this
  | ok r => rw [h] at this; exact ⟨r, rfl, by simpa [Outcome.bind] using this⟩

/-- C128 is false: a frame received by the one interface leaves the same trace as one received by the other. -/
theorem C128_full_statement_fails : ¬ C128_Statement := by
  rintro ⟨reader, h⟩
  obtain ⟨r, hr, hf⟩ := exRead
  obtain ⟨out, h0, h1⟩ := C128_which_partial exIface exBuf exAns r hr
  have e0 := h _ _ _ _ (fun e he => by rw [List.mem_singleton.1 he]; trivial) h0
  have e1 := h _ _ _ _ (fun e he => by rw [List.mem_singleton.1 he]; trivial) h1
  rw [e0] at e1
  generalize r.out_frames.toList.take r.read = l at hf e1
  cases l with
  | nil => cases hf
  | cons f l => simp at e1

/-- C128: a frame and what is told of it. -/
example : ∃ d out, traceSession [exIface, exIface] [.unsupported "SO_RXQ_OVFL" "vcan0", .read 1 exBuf exAns, .close] = .ok (d, out) ∧
    told out.flatten = [(0x80000123, 0)] ∧ ∀ e ∈ [TraceEvent.unsupported "SO_RXQ_OVFL" "vcan0", .read 1 exBuf exAns, .close], ValidEvent e := by
  obtain ⟨r, hr, hf⟩ := exRead
  obtain ⟨out, h1, -⟩ := readT_ok exIface exBuf exAns r hr
  have hv : ∀ e ∈ [TraceEvent.unsupported "SO_RXQ_OVFL" "vcan0", .read 1 exBuf exAns, .close], ValidEvent e := by
    intro e he
    simp only [List.mem_cons, List.not_mem_nil, or_false] at he
    rcases he with rfl | rfl | rfl
    · exact ⟨by decide, by decide⟩
    · trivial
    · trivial
  have ht : traceSession [exIface, exIface] [.unsupported "SO_RXQ_OVFL" "vcan0", .read 1 exBuf exAns, .close] =
      .ok ([(1, r.out_frames.toList.take r.read)], notSupported "SO_RXQ_OVFL" "vcan0" :: (out ++ [closing])) := by
    simp only [traceSession, List.getElem?_cons_succ, List.getElem?_cons_zero, h1, Outcome.ok_bind, Outcome.pure_eq]
  refine ⟨_, _, ht, ?_, hv⟩
  rw [(C128_told_partial _ _ _ _ hv ht).1]
  simpa using hf

end Uavcan.SocketCan
