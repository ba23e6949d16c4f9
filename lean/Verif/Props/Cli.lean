import Verif.Model.Cli
import Mathlib.Data.List.Basic

/-! C41: the commands `convert` and `metric`. -/
namespace Ditto.Cli
open Ditto

/-- the steps that create output -/
def Writes (s : Step) : Prop := (∃ p, s = .writeJson p) ∨ (∃ f, s = .write f) ∨ ∃ p, s = .export p

/-! ### Helper lemmas -/

theorem exec_steps {fail : Step → Option PyErr} {err : Option PyErr} : ∀ {ss pre post : List Step} {s : Step},
    (exec fail err ss).steps = pre ++ s :: post → (∃ rest, ss = pre ++ s :: rest) ∧ ∀ x ∈ pre, fail x = none := by
  intro ss
  induction ss with
  | nil => intro pre post s h; simp [exec] at h
  | cons a as ih =>
    intro pre post s h
    simp only [exec] at h
    cases hf : fail a with
    | some e =>
      rw [hf] at h
      cases pre with
      | nil =>
        simp only [List.nil_append, List.cons.injEq] at h
        exact ⟨⟨as, by rw [h.1]; rfl⟩, fun x hx => by cases hx⟩
      | cons p ps => simp at h
    | none =>
      rw [hf] at h
      simp only [Plan.after, List.singleton_append] at h
      cases pre with
      | nil =>
        simp only [List.nil_append, List.cons.injEq] at h
        exact ⟨⟨as, by rw [h.1]; rfl⟩, fun x hx => by cases hx⟩
      | cons p ps =>
        simp only [List.cons_append, List.cons.injEq] at h
        obtain ⟨⟨rest, hr⟩, h2⟩ := ih h.2
        refine ⟨⟨rest, by rw [hr, h.1]; rfl⟩, fun x hx => ?_⟩
        rcases List.mem_cons.1 hx with rfl | hx
        · rw [← h.1]; exact hf
        · exact h2 x hx

theorem exec_none {fail : Step → Option PyErr} {err : Option PyErr} {ss : List Step} (h : (exec fail err ss).err = none) :
    err = none ∧ (exec fail err ss).steps = ss ∧ ∀ s ∈ ss, fail s = none := by
  induction ss with
  | nil => exact ⟨h, rfl, fun s hs => by cases hs⟩
  | cons a as ih =>
    simp only [exec] at h ⊢
    cases hf : fail a with
    | some e => rw [hf] at h; cases h
    | none =>
      rw [hf] at h
      obtain ⟨h1, h2, h3⟩ := ih h
      refine ⟨h1, by simp only [Plan.after, h2]; rfl, fun s hs => ?_⟩
      rcases List.mem_cons.1 hs with rfl | hs
      · exact hf
      · exact h3 s hs

theorem exec_all {fail : Step → Option PyErr} {err : Option PyErr} {ss : List Step} (h : ∀ s ∈ ss, fail s = none) :
    exec fail err ss = ⟨ss, err⟩ := by
  induction ss with
  | nil => rfl
  | cons a as ih =>
    simp only [exec, h a List.mem_cons_self, ih fun s hs => h s (List.mem_cons_of_mem _ hs)]
    rfl

/-- in a list `a ++ p :: b` where nothing in `a` writes and `p` does not, `p` comes before everything that writes -/
theorem before_writes {a b pre rest : List Step} {p s : Step} (ha : ∀ x ∈ a, ¬ Writes x) (hp : ¬ Writes p) (hs : Writes s)
    (h : a ++ p :: b = pre ++ s :: rest) : p ∈ pre := by
  induction a generalizing pre with
  | nil =>
    cases pre with
    | nil =>
      simp only [List.nil_append, List.cons.injEq] at h
      exact absurd (h.1 ▸ hs) hp
    | cons q qs =>
      simp only [List.nil_append, List.cons_append, List.cons.injEq] at h
      rw [h.1]; exact List.mem_cons_self
  | cons c cs ih =>
    cases pre with
    | nil =>
      simp only [List.nil_append, List.cons_append, List.cons.injEq] at h
      exact absurd (h.1 ▸ hs) (ha c List.mem_cons_self)
    | cons q qs =>
      simp only [List.cons_append, List.cons.injEq] at h
      exact List.mem_cons_of_mem _ (ih (fun x hx => ha x (List.mem_cons_of_mem _ hx)) h.2)

/-- the steps of `convert`: none, or those before the parsing, the parsing, and those after it -/
theorem convert_steps (w : World) (o : Options) : (∀ s ∈ (convertCmd w o).steps, ¬ Writes s) ∨
    ∃ f a b, o.fromF = some f ∧ (convertCmd w o).steps = a ++ .parse f :: b ∧ ∀ x ∈ a, ¬ Writes x := by
  have hopen : ∀ x ∈ openSteps o.input, ¬ Writes x := by
    intro x hx
    unfold openSteps at hx
    split at hx
    · rw [List.mem_singleton] at hx
      subst hx
      simp [Writes]
    · cases hx
  have key : ∀ f t, (∀ s ∈ (convertPlan w f t o).steps, ¬ Writes s) ∨
      ∃ a b, (convertPlan w f t o).steps = a ++ .parse f :: b ∧ ∀ x ∈ a, ¬ Writes x := by
    intro f t
    unfold convertPlan
    cases getInputs w f o with
    | error e => left; simpa [Plan.after] using hopen
    | ok i =>
      right
      refine ⟨openSteps o.input ++ [.newReader f i, .newWriter t o.output], jsonSteps o ++ [.write t], by simp [Plan.after], fun x hx => ?_⟩
      rcases List.mem_append.1 hx with hx | hx
      · exact hopen x hx
      · simp only [List.mem_cons, List.not_mem_nil, or_false] at hx
        rcases hx with rfl | rfl <;> simp [Writes]
  have key2 : ∀ (l : List Step) f t, (∀ x ∈ l, ¬ Writes x) → (∀ s ∈ (Plan.after l (convertPlan w f t o)).steps, ¬ Writes s) ∨
      ∃ a b, (Plan.after l (convertPlan w f t o)).steps = a ++ .parse f :: b ∧ ∀ x ∈ a, ¬ Writes x := by
    intro l f t hl
    rcases key f t with h | ⟨a, b, h1, h2⟩
    · left
      intro s hs
      simp only [Plan.after] at hs
      rcases List.mem_append.1 hs with hs | hs
      · exact hl s hs
      · exact h s hs
    · right
      refine ⟨l ++ a, b, by simp only [Plan.after, h1, List.append_assoc], fun x hx => ?_⟩
      rcases List.mem_append.1 hx with hx | hx
      · exact hl x hx
      · exact h2 x hx
  unfold convertCmd
  cases hf : o.fromF with
  | none => left; intro s hs; cases hs
  | some f =>
    simp only
    split
    · left; intro s hs; cases hs
    · cases ht : o.toF with
      | none => left; intro s hs; cases hs
      | some t =>
        simp only
        split
        · left; intro s hs; cases hs
        · cases hj : o.jsonize with
          | none =>
            rcases key2 [.loadReader f, .loadWriter t] f t (by simp [Writes]) with h | ⟨a, b, h⟩
            · exact .inl h
            · exact .inr ⟨f, a, b, rfl, h⟩
          | some p =>
            simp only
            split
            · left; intro s hs; cases hs
            · rcases key2 [.loadWriter "json", .loadReader f, .loadWriter t] f t (by simp [Writes]) with h | ⟨a, b, h⟩
              · exact .inl h
              · exact .inr ⟨f, a, b, rfl, h⟩

theorem metric_steps (w : World) (o : Options) : (∀ s ∈ (metricCmd w o).steps, ¬ Writes s) ∨
    ∃ f a b, o.fromF = some f ∧ (metricCmd w o).steps = a ++ .parse f :: b ∧ ∀ x ∈ a, ¬ Writes x := by
  have hopen : ∀ x ∈ openSteps o.input, ¬ Writes x := by
    intro x hx
    unfold openSteps at hx
    split at hx
    · rw [List.mem_singleton] at hx
      subst hx
      simp [Writes]
    · cases hx
  unfold metricCmd
  cases hf : o.fromF with
  | none => left; intro s hs; cases hs
  | some f =>
    simp only
    split
    · left; intro s hs; cases hs
    · cases getInputs w f o.withoutDefaults with
      | error e =>
        left
        intro s hs
        simp only [Plan.after, List.append_nil] at hs
        rcases List.mem_append.1 hs with hs | hs
        · rw [List.mem_singleton] at hs; subst hs; simp [Writes]
        · exact hopen s hs
      | ok i =>
        right
        refine ⟨f, [.loadReader f] ++ openSteps o.input ++ [.newReader f i], (if o.byFeeder then [.splitFeeders] else []) ++ [.metrics o.byFeeder] ++
          (exportPlan o).steps, rfl, by simp [Plan.after], fun x hx => ?_⟩
        rcases List.mem_append.1 hx with hx | hx
        · rcases List.mem_append.1 hx with hx | hx
          · rw [List.mem_singleton] at hx; subst hx; simp [Writes]
          · exact hopen x hx
        · rw [List.mem_singleton] at hx; subst hx; simp [Writes]

/-! ### Properties -/

/-- C41: a format that is not registered (or not given) is reported before anything is done. -/
theorem C41_unknown_format (w : World) (o : Options)
    (h : (∀ f, o.fromF = some f → f ∉ w.readers) ∨ (∀ t, o.toF = some t → t ∉ w.writers)) :
    run w (convertCmd w o) = ⟨[], some .badOptionUsage⟩ := by
  have : convertCmd w o = ⟨[], some .badOptionUsage⟩ := by
    unfold convertCmd
    cases hf : o.fromF with
    | none => rfl
    | some f =>
      simp only
      by_cases hr : f ∉ w.readers
      · rw [if_pos hr]
      · rw [if_neg hr]
        rcases h with h | h
        · exact absurd (h f hf) hr
        · cases ht : o.toF with
          | none => rfl
          | some t => simp only; rw [if_pos (h t ht)]
  rw [this]
  rfl

/-- C41: likewise for metrics, where only the input has a registered format -/
theorem C41_unknown_metric (w : World) (o : Options) (h : ∀ f, o.fromF = some f → f ∉ w.readers) :
    run w (metricCmd w o) = ⟨[], some .badOptionUsage⟩ := by
  have : metricCmd w o = ⟨[], some .badOptionUsage⟩ := by
    unfold metricCmd
    cases hf : o.fromF with
    | none => rfl
    | some f => simp only; rw [if_pos (h f hf)]
  rw [this]
  rfl

/-- C41: whatever fails in the course of a command, nothing is written before the whole input has been read. -/
theorem C41_reads_first (w : World) (o : Options) (cmd : Plan) (hc : cmd = convertCmd w o ∨ cmd = metricCmd w o) (pre post : List Step) (s : Step)
    (h : (run w cmd).steps = pre ++ s :: post) (hs : Writes s) :
    ∃ f, o.fromF = some f ∧ Step.parse f ∈ pre ∧ w.fail (.parse f) = none := by
  unfold run at h
  obtain ⟨⟨rest, h1⟩, h2⟩ := exec_steps h
  have hsteps : (∀ s ∈ cmd.steps, ¬ Writes s) ∨ ∃ f a b, o.fromF = some f ∧ cmd.steps = a ++ .parse f :: b ∧ ∀ x ∈ a, ¬ Writes x := by
    rcases hc with rfl | rfl
    · exact convert_steps w o
    · exact metric_steps w o
  rcases hsteps with h3 | ⟨f, a, b, h3, h4, h5⟩
  · exact absurd hs (h3 s (by rw [h1]; simp))
  · have := before_writes h5 (by simp [Writes]) hs (h4 ▸ h1)
    exact ⟨f, h3, this, h2 _ this⟩

/-- the formats whose inputs the converter knows -/
def KnownInputs (w : World) (f : String) (o : Options) : Prop :=
  (isJson o.input = true ∧ w.hasConfig o.input = true) ∨ f ∈ ["opendss", "cyme", "gridlabd", "demo", "synergi", "dew"]

theorem getInputs_ok (w : World) (f : String) (o : Options) : (∃ i, getInputs w f o = .ok i) ↔ KnownInputs w f o := by
  unfold getInputs KnownInputs
  constructor
  · rintro ⟨i, hi⟩
    split at hi
    · rename_i h
      exact .inl (by simpa using h)
    · split at hi
      · rename_i h; exact .inr h
      · cases hi
  · rintro (h | h)
    · exact ⟨.config, by rw [if_pos (by simpa using h)]⟩
    · split
      · exact ⟨_, rfl⟩
      · exact ⟨_, rfl⟩

/-- C41: a conversion that succeeds has read the input with the reader of its format and written it with the writer of the other one, and
the JSON file if asked for; both formats are registered and the inputs known. -/
theorem C41_success (w : World) (o : Options) (h : (run w (convertCmd w o)).err = none) :
    ∃ f t i, o.fromF = some f ∧ o.toF = some t ∧ f ∈ w.readers ∧ t ∈ w.writers ∧ KnownInputs w f o ∧ getInputs w f o = .ok i ∧
      ∃ pre, (run w (convertCmd w o)).steps = pre ++ [.newReader f i, .newWriter t o.output, .parse f] ++ jsonSteps o ++ [.write t] := by
  unfold run at h ⊢
  obtain ⟨h1, h2, -⟩ := exec_none h
  rw [h2]
  clear h h2
  unfold convertCmd at h1 ⊢
  cases hf : o.fromF with
  | none => rw [hf] at h1; cases h1
  | some f =>
    rw [hf] at h1
    simp only at h1 ⊢
    by_cases hr : f ∉ w.readers
    · rw [if_pos hr] at h1; cases h1
    rw [if_neg hr] at h1 ⊢
    cases ht : o.toF with
    | none => rw [ht] at h1; cases h1
    | some t =>
      rw [ht] at h1
      simp only at h1 ⊢
      by_cases hw : t ∉ w.writers
      · rw [if_pos hw] at h1; cases h1
      rw [if_neg hw] at h1 ⊢
      have key : ∀ l, (Plan.after l (convertPlan w f t o)).err = none → ∃ i, KnownInputs w f o ∧ getInputs w f o = .ok i ∧
          ∃ pre, (Plan.after l (convertPlan w f t o)).steps = pre ++ [.newReader f i, .newWriter t o.output, .parse f] ++ jsonSteps o ++ [.write t] := by
        intro l hl
        unfold convertPlan at hl ⊢
        cases hi : getInputs w f o with
        | error e => rw [hi] at hl; cases hl
        | ok i =>
          refine ⟨i, (getInputs_ok w f o).1 ⟨i, hi⟩, rfl, l ++ openSteps o.input, ?_⟩
          simp [Plan.after]
      cases hj : o.jsonize with
      | none =>
        rw [hj] at h1
        obtain ⟨i, k⟩ := key _ h1
        exact ⟨f, t, i, rfl, rfl, not_not.1 hr, not_not.1 hw, k⟩
      | some p =>
        rw [hj] at h1
        simp only at h1 ⊢
        by_cases hjw : "json" ∉ w.writers
        · rw [if_pos hjw] at h1; cases h1
        rw [if_neg hjw] at h1 ⊢
        obtain ⟨i, k⟩ := key _ h1
        exact ⟨f, t, i, rfl, rfl, not_not.1 hr, not_not.1 hw, k⟩

/-- C41: the conversion succeeds if the formats are registered, the inputs of the format are known and no step fails. That the inputs are
known is necessary (`C41_success`), though not a part of the property (`C41_json_violated`). -/
theorem C41_converts_partial (w : World) (o : Options) (f t : String) (hf : o.fromF = some f) (ht : o.toF = some t) (hr : f ∈ w.readers)
    (hw : t ∈ w.writers) (hk : KnownInputs w f o) (hj : o.jsonize ≠ none → "json" ∈ w.writers) (hn : ∀ s, w.fail s = none) :
    (run w (convertCmd w o)).err = none := by
  unfold run
  rw [exec_all fun s _ => hn s]
  obtain ⟨i, hi⟩ := (getInputs_ok w f o).2 hk
  unfold convertCmd
  rw [hf, ht]
  simp only
  rw [if_neg (not_not.2 hr), if_neg (not_not.2 hw)]
  cases hjs : o.jsonize with
  | none => simp only [Plan.after, convertPlan, hi]
  | some p =>
    simp only
    rw [if_neg (not_not.2 (hj (by rw [hjs]; exact Option.some_ne_none p)))]
    simp only [Plan.after, convertPlan, hi]

/-- C41: without a configuration file, the reader gets the input, the default values and the flag to remove them. -/
theorem C41_options (w : World) (o : Options) (f : String) (i : Inputs) (h : getInputs w f o = .ok i)
    (hc : ¬ (isJson o.input = true ∧ w.hasConfig o.input = true)) (hd : o.defaultValues ≠ some "") :
    i = .paths f o.input o.defaultValues o.removeDefaults := by
  unfold getInputs at h
  rw [if_neg (by simpa using hc)] at h
  split at h
  · cases h
    congr 1
    split
    · rename_i heq; exact absurd heq hd
    · rfl
  · cases h

/-! ### Examples and violations -/

/-- the formats of setup.py, all configurations have entries, and nothing fails -/
def exWorld : World where
  readers := ["gridlabd", "opendss", "cyme", "demo", "json", "synergi"]
  writers := ["gridlabd", "opendss", "cyme", "demo", "json", "ephasor"]
  hasConfig := fun _ => true
  fail := fun _ => none

def exOptions : Options where
  fromF := some "opendss"
  toF := some "cyme"
  input := "master.dss"
  output := "out"
  jsonize := some "j"
  removeDefaults := true

theorem exConvert_run : run exWorld (convertCmd exWorld exOptions) =
    ⟨[.loadWriter "json", .loadReader "opendss", .loadWriter "cyme", .newReader "opendss" (.paths "opendss" "master.dss" none true),
      .newWriter "cyme" "out", .parse "opendss", .newJson "j", .writeJson "j", .write "cyme"], none⟩ := by decide +kernel

example : KnownInputs exWorld "opendss" { fromF := some "opendss", toF := some "cyme", input := "master.dss", output := "out" } := by
  right; decide +kernel

/-- a reader that fails: nothing is written -/
example : run { exWorld with fail := fun s => if s = .parse "demo" then some .keyError else none }
    (convertCmd exWorld { fromF := some "demo", toF := some "opendss", input := "x", output := "out" }) =
    ⟨[.loadReader "demo", .loadWriter "opendss", .newReader "demo" (.paths "demo" "x" none false), .newWriter "opendss" "out", .parse "demo"],
      some .keyError⟩ := by decide +kernel

/-- C41: the registered JSON reader never gets its input file. A file that ends in ".json" is taken for a configuration, the entries of
which are the arguments; any other file is rejected. -/
theorem C41_json_violated : "json" ∈ exWorld.readers ∧
    (∀ input output, isJson input = true → getInputs exWorld "json" { fromF := some "json", toF := some "opendss", input := input, output := output } = .ok .config) ∧
    ∀ (w : World) (o : Options), isJson o.input = false → o.fromF = some "json" → (run w (convertCmd w o)).err ≠ none := by
  refine ⟨by decide +kernel, fun input output h => by simp [getInputs, h, exWorld], fun w o hi hf h => ?_⟩
  obtain ⟨f, t, i, h1, -, -, -, hk, -⟩ := C41_success w o h
  rw [hf] at h1
  cases h1
  rcases hk with ⟨h, -⟩ | h
  · rw [hi] at h; cases h
  · revert h; decide +kernel

/-- C41: the warehouse of Synergi given on the command line is never used. -/
theorem C41_warehouse_violated (w : World) (o : Options) (x : Option String) :
    run w (convertCmd w { o with warehouse := x }) = run w (convertCmd w o) := rfl

/-- C41: metrics for an unknown output format are computed and not written anywhere, without an error. -/
theorem C41_metric_violated : run exWorld (metricCmd exWorld { fromF := some "opendss", toF := some "csv", input := "m.dss", output := "o" }) =
    ⟨[.loadReader "opendss", .newReader "opendss" (.paths "opendss" "m.dss" none false), .parse "opendss", .splitFeeders, .metrics true], none⟩ := by
  decide +kernel

/-- C41: the same without a format, with an error after everything was computed -/
theorem C41_metric_none_violated : (run exWorld (metricCmd exWorld { fromF := some "opendss", toF := none, input := "m.dss", output := "o" })).err =
    some .attributeError := by decide +kernel

end Ditto.Cli
