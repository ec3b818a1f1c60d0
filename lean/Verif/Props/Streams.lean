import Mathlib.Tactic.Common
import Verif.Model.Streams

/-!
# C64: streams and worker pools
-/

namespace DiscSolver.Streams

/-- C64 (partial). A body which returns: a file opened by name is closed afterwards,
whatever the body did; `-` and a stream passed in are left as the body left them, and
so is every other stream.  Missing: a body which raises, see `open_or_stream_leaks`. -/
theorem open_or_stream_partial {α : Type} (canOpen : String → Option PyErr) (t : Target)
    (body : Body α) (w w' : World) (a : α)
    (h : open_or_stream canOpen t body w = (w', .ok a)) :
    (∀ k, t = .stream k → body k w = (w', .ok a)) ∧
    (t = .name "-" → body 0 w = (w', .ok a)) ∧
    (∀ s, t = .name s → s ≠ "-" → canOpen s = none ∧ w'.isOpen w.next = false ∧
      ∃ w₁, body w.next w.opened = (w₁, .ok a) ∧
        ∀ k, k ≠ w.next → w'.isOpen k = w₁.isOpen k) := by
  refine ⟨?_, ?_, ?_⟩
  · rintro k rfl
    exact h
  · rintro rfl
    exact h
  · rintro s rfl hs
    simp only [open_or_stream, if_neg hs] at h
    rcases hc : canOpen s with _ | e
    · rw [hc] at h
      rcases hb : body w.next w.opened with ⟨w₁, e | b⟩
      · simp only [hb] at h
        cases (Prod.mk.inj h).2
      · simp only [hb] at h
        obtain ⟨h1, h2⟩ := Prod.mk.inj h
        injection h2 with h2
        subst h1 h2
        refine ⟨rfl, by simp [World.close], w₁, rfl, ?_⟩
        intro k hk
        simp [World.close, hk]
    · rw [hc] at h
      cases (Prod.mk.inj h).2

/-- C64. The body gets the file just opened, which is open, or the standard output, or
the stream passed in; a file which cannot be opened raises before the body runs. -/
theorem open_or_stream_body {α : Type} (canOpen : String → Option PyErr)
    (body : Body α) (w : World) :
    (∀ k, (open_or_stream canOpen (.stream k) body w).2 = (body k w).2) ∧
    (open_or_stream canOpen (.name "-") body w).2 = (body 0 w).2 ∧
    (∀ s, s ≠ "-" → canOpen s = none → w.opened.isOpen w.next = true ∧
      w.opened.next ≠ w.next ∧ (∀ k, k ≠ w.next → w.opened.isOpen k = w.isOpen k) ∧
      (open_or_stream canOpen (.name s) body w).2 = (body w.next w.opened).2) ∧
    ∀ s e, s ≠ "-" → canOpen s = some e →
      open_or_stream canOpen (.name s) body w = (w, .error e) := by
  refine ⟨fun _ => rfl, rfl, ?_, ?_⟩
  · intro s hs hc
    refine ⟨by simp [World.opened], by simp [World.opened],
      fun k hk => by simp [World.opened, hk], ?_⟩
    simp only [open_or_stream, if_neg hs, hc]
    rcases hb : body w.next w.opened with ⟨w₁, e | b⟩ <;> rfl
  · intro s e hs hc
    simp only [open_or_stream, if_neg hs, hc]

/-- C64. Whatever is raised in the body, the file opened for it stays as the body left
it: open, unless the body closed it. -/
theorem open_or_stream_leaks {α : Type} (canOpen : String → Option PyErr) (s : String)
    (hs : s ≠ "-") (hc : canOpen s = none) (body : Body α) (w w₁ : World) (e : PyErr)
    (hb : body w.next w.opened = (w₁, .error e)) :
    open_or_stream canOpen (.name s) body w = (w₁, .error e) := by
  simp only [open_or_stream, if_neg hs, hc, hb]

/-- C64. The full property is false of the code. -/
theorem open_or_stream_not_closed :
    ∃ (body : Body Unit) (w w' : World) (e : PyErr),
      open_or_stream (fun _ => none) (.name "stats.csv") body w = (w', .error e) ∧
      w.isOpen w.next = false ∧ w'.isOpen w.next = true :=
  ⟨fun _ w => (w, .error .TypeError), ⟨fun k => k = 0, 1⟩, _, .TypeError,
    open_or_stream_leaks _ _ (by decide) rfl _ _ _ _ rfl, rfl, rfl⟩

example : ∃ w', open_or_stream (fun _ => none) (.name "stats.csv")
    (fun _ w => (w, .ok ())) ⟨fun k => k = 0, 1⟩ = (w', .ok ()) := ⟨_, rfl⟩

/-- C64. A pool which could be started is closed and joined after the body, whether it
returned or raised, and the body's outcome is kept. -/
theorem pool_closed {α : Type} (body : Except PyErr α) :
    nicer_mp_pool none body = ([.created, .body, .closed, .joined], body) := rfl

/-- C64. The error of a pool which could not be started is replaced. -/
theorem pool_error_lost {α : Type} (e : PyErr) (body : Except PyErr α) :
    nicer_mp_pool (some e) body = ([], .error .UnboundLocalError) := rfl

/-- A body which raises leaves the file open. -/
example := open_or_stream_leaks (α := Unit) (fun _ => none) "out.csv" (by decide) rfl
  (fun _ w => (w, .error .KeyError)) ⟨fun k => k = 0, 1⟩ _ .KeyError rfl

example := open_or_stream_partial (α := Unit) (fun _ => none) (.name "out.csv")
  (fun _ w => (w, .ok ())) ⟨fun k => k = 0, 1⟩ _ () rfl

end DiscSolver.Streams
