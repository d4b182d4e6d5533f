import Verif.Comm.JobRun
import Verif.Halo.Props
/-
C111: a whole parallel run can neither deadlock nor mix up messages.
-/
namespace PG.Comm.Job
open PG.Topo PG.Halo PG.Run PG.Time

/-! ### the segments of a run are good, and make the same collective calls on all ranks -/

/-- what holds of every segment of a run -/
structure Fine (n : ℕ) (s : Seg) : Prop where
  good : Good n s
  same : ∀ r r', colls (s r) = colls (s r')

theorem fine_coll (n : ℕ) (k : Kind) : Fine n (collSeg k) := ⟨good_coll n k, fun _ _ => rfl⟩

theorem fine_comm (world : List (List Block)) (hw : WellConnected world) (nv : ℕ) : ∀ s ∈ commSegs world nv, Fine world.length s := by
  intro s hs
  unfold commSegs at hs
  obtain ⟨l, hl, hs⟩ := List.mem_flatten.1 hs
  rw [(List.mem_replicate.1 hl).2] at hs
  simp only [List.mem_cons, List.not_mem_nil, or_false] at hs
  rcases hs with rfl | rfl
  · refine ⟨good_exch _ _ _ ?_ ?_ ?_, fun _ _ => by rw [exch_colls, exch_colls]⟩
    · intro r hr p hp
      obtain ⟨b, hb, f, hf, nb, nf2, hn, _, rfl⟩ := (mem_sendsOf world r p).1 hp
      obtain ⟨b', _, h1, _⟩ := partner world hw r b hb f hf nb hn
      exact owns_lt world _ b' h1
    · intro r hr p hp
      obtain ⟨b, hb, f, hf, hn, rfl⟩ := (mem_recvsOf world r p).1 hp
      cases hn' : f.neighbor with
      | none => exact absurd hn' hn
      | some nb =>
        obtain ⟨b', _, h1, _⟩ := partner world hw r b hb f hf nb hn'
        exact owns_lt world _ b' h1
    · exact fun r _ d _ t => counts_match world hw r d t
  · exact fine_coll _ _

theorem fine_scall (c : Conf) (world : List (List Block)) (hw : WellConnected world) (k : SCall) :
    ∀ s ∈ scallSegs c world k, Fine world.length s := by
  intro s hs
  have hc : ∀ s ∈ commSegs world 1 ++ (if c.phi then commSegs world 1 else []), Fine world.length s := by
    intro s hs
    rcases List.mem_append.1 hs with h | h
    · exact fine_comm world hw 1 s h
    · split at h
      · exact fine_comm world hw 1 s h
      · simp at h
  cases k with
  | rhs =>
    simp only [scallSegs] at hs
    split at hs
    · exact fine_comm world hw 3 s hs
    · simp at hs
  | consistify => exact hc s hs
  | consistifyP => exact hc s hs
  | resid =>
    simp only [scallSegs, List.mem_cons, List.not_mem_nil, or_false] at hs
    rcases hs with rfl | rfl <;> exact fine_coll _ _

theorem fine_file (n : ℕ) (c : Conf) (f : Fil) (nv : ℕ) : ∀ s ∈ fileSegs c f nv, Fine n s := by
  intro s hs
  unfold fileSegs at hs
  split at hs
  · obtain ⟨k, _, rfl⟩ := List.mem_map.1 hs
    exact fine_coll n k
  · simp at hs

theorem fine_register (n : ℕ) : ∀ s ∈ registerSegs n, Fine n s := by
  intro s hs
  unfold registerSegs at hs
  rcases List.mem_append.1 hs with h | h
  · obtain ⟨i, hi, rfl⟩ := List.mem_map.1 h
    have hi := List.mem_range.1 hi
    refine ⟨good_exch _ _ _ ?_ ?_ ?_, fun _ _ => by rw [exch_colls, exch_colls]⟩
    · intro r hr x hx
      split at hx
      · simp only [List.mem_singleton] at hx; subst hx; dsimp only; omega
      · simp at hx
    · intro r hr x hx
      split at hx
      · simp only [List.mem_singleton] at hx; subst hx; dsimp only; omega
      · simp at hx
    · intro r _ d _ t
      by_cases h1 : r = i + 1 <;> by_cases h2 : d = 0 <;> by_cases h3 : t = i + 1 <;>
        simp [h1, h2, h3, eq_comm]
  · simp only [List.mem_singleton] at h
    subst h
    exact fine_coll _ _

theorem fine_boot (c : Conf) (world : List (List Block)) (hw : WellConnected world) :
    ∀ s ∈ bootSegs c world, Fine world.length s := by
  intro s hs
  unfold bootSegs at hs
  have hcoll : ∀ ks : List Kind, s ∈ ks.map collSeg → Fine world.length s := by
    intro ks h
    obtain ⟨k, _, rfl⟩ := List.mem_map.1 h
    exact fine_coll _ k
  simp only [List.mem_append] at hs
  rcases hs with (((((((h | h) | h) | h) | h) | h) | h) | h) | h
  · exact hcoll [.openFile .config, .close .config, .barrier] h
  · exact hcoll [.openFile .procs] h
  · split at h
    · exact hcoll [.close .procs] h
    · simp at h
  · exact hcoll [.barrier, .barrier, .barrier, .barrier, .barrier] h
  · obtain ⟨l, hl, h⟩ := List.mem_flatten.1 h
    rw [(List.mem_replicate.1 hl).2] at h
    exact fine_comm world hw 3 s h
  · exact hcoll [.barrier, .barrier] h
  · obtain ⟨l, hl, h⟩ := List.mem_flatten.1 h
    rw [(List.mem_replicate.1 hl).2] at h
    exact fine_register _ s h
  · exact fine_scall c world hw _ s h
  · exact hcoll [.barrier, .allreduce .cells, .gather] h

theorem fine_ev (c : Conf) (world : List (List Block)) (hw : WellConnected world) (nrt : ℕ) (e : Ev) :
    ∀ s ∈ evSegs c world nrt e, Fine world.length s := by
  intro s hs
  cases e with
  | step =>
    simp only [evSegs, List.mem_cons, List.mem_flatMap] at hs
    rcases hs with rfl | ⟨k, _, h⟩
    · exact fine_coll _ _
    · exact fine_scall c world hw k s h
  | restart m => exact fine_file _ c _ _ s hs
  | qnm1 m => simp [evSegs] at hs
  | archive m =>
    simp only [evSegs, List.mem_append, List.mem_flatMap] at hs
    rcases hs with h | ⟨e, _, h⟩
    · exact fine_file _ c _ _ s h
    · exact fine_file _ c _ _ s h
  | nanCheck m =>
    simp only [evSegs, List.mem_singleton] at hs
    subst hs
    exact fine_coll _ _
  | emergency =>
    simp only [evSegs, List.mem_append, List.mem_singleton] at hs
    rcases hs with h | rfl
    · exact fine_file _ c _ _ s h
    · exact fine_coll _ _
  | coproc m => simp [evSegs] at hs
  | finalize => simp [evSegs] at hs

theorem fine_evs (c : Conf) (world : List (List Block)) (hw : WellConnected world) (nrt : ℕ) (es : List Ev) :
    ∀ s ∈ evsSegs c world nrt es, Fine world.length s := by
  induction es generalizing nrt with
  | nil => intro s hs; simp [evsSegs] at hs
  | cons e es ih =>
    intro s hs
    rcases List.mem_append.1 hs with h | h
    · exact fine_ev c world hw nrt e s h
    · exact ih _ s h

theorem fine_job (c : Conf) (world : List (List Block)) (hw : WellConnected world) (bad : ℕ → Bool) (nrt : ℕ) :
    ∀ s ∈ jobSegs c world bad nrt, Fine world.length s := by
  intro s hs
  rcases List.mem_append.1 hs with h | h
  · exact fine_boot c world hw s h
  · exact fine_evs c world hw _ _ s h

theorem colls_prog (l : List Seg) (r : ℕ) : colls (prog l r) = l.flatMap fun s => colls (s r) := by
  induction l with
  | nil => rfl
  | cons s l ih =>
    have : prog (s :: l) r = s r ++ prog l r := by simp [prog]
    rw [this, colls_append, ih]; simp

/-! ### C111 -/

/-- C111 (collective calls): all ranks make the same collective calls in the same order, whatever blocks they own, in every run: for every
    configuration, every iteration count and every outcome of the NaN checks. -/
theorem C111_same_collectives (c : Conf) (world : List (List Block)) (hw : WellConnected world) (bad : ℕ → Bool) (nrt : ℕ → ℕ) (r r' : ℕ)
    (hn : nrt r = nrt r') : colls (job c world bad nrt r) = colls (job c world bad nrt r') := by
  unfold job
  rw [← hn, colls_prog, colls_prog]
  have h := fine_job c world hw bad (nrt r)
  generalize jobSegs c world bad (nrt r) = l at h
  induction l with
  | nil => rfl
  | cons s l ih =>
    rw [List.flatMap_cons, List.flatMap_cons, (h s (by simp)).same r r', ih (fun x hx => h x (by simp [hx]))]

/-- C111 (progress): in a reciprocally connected decomposition whose ranks start from the same iteration number, at every point of the run
    - reading input, setting up, any iteration, writing files, NaN check, emergency output - and under every schedule, if some rank has
    not finished, then some rank can complete its next MPI call, even if the library never buffers a message and lets no rank leave a
    collective call early (or does either whenever it likes). MISSING: ranks that start from different iteration numbers and ranks that
    raise an exception, where it is false: `C111_mixed_restart_violated`, `C111_exception_violated`. -/
theorem C111_no_deadlock_partial (c : Conf) (world : List (List Block)) (hw : WellConnected world) (bad : ℕ → Bool) (nrt : ℕ → ℕ)
    (hn : ∀ r < world.length, nrt r = nrt 0) (lib : Library) (s : State) (k : ℕ)
    (h : Reach world.length lib (start (job c world bad nrt)) s k) (hun : ∃ r, r < world.length ∧ (s r).todo ≠ []) :
    ∃ s', Step world.length lib s s' := by
  obtain ⟨r, hr, he⟩ := progress_from world.length lib s (jobSegs c world bad (nrt 0))
    (fun x hx => (fine_job c world hw bad (nrt 0) x hx).good) (fun _ => [])
    (fun r hr => by rw [(reach_inv h).1 r, job, hn r hr]; simp) (fun r _ => List.nil_prefix)
    (fun _ _ _ _ _ => rfl) (fun _ _ _ _ _ => rfl) (fun _ _ _ _ => rfl) hun
  exact ⟨_, r, hr, he, rfl⟩

/-- C111 (termination): a schedule is never longer than the number of MPI calls of all ranks together, and one that cannot be continued has
    executed the whole program of every rank. So every run ends, on every rank. -/
theorem C111_completes_partial (c : Conf) (world : List (List Block)) (hw : WellConnected world) (bad : ℕ → Bool) (nrt : ℕ → ℕ)
    (hn : ∀ r < world.length, nrt r = nrt 0) (lib : Library) (s : State) (k : ℕ)
    (h : Reach world.length lib (start (job c world bad nrt)) s k) :
    k ≤ remaining world.length (start (job c world bad nrt)) ∧
    ((¬ ∃ s', Step world.length lib s s') → ∀ r < world.length, (s r).done = job c world bad nrt r) := by
  have hi := reach_inv h
  refine ⟨by omega, fun hstuck r hr => ?_⟩
  have : (s r).todo = [] := by
    by_contra hne
    exact hstuck (C111_no_deadlock_partial c world hw bad nrt hn lib s k h ⟨r, hr, hne⟩)
  have h2 := hi.1 r
  rwa [this, List.append_nil] at h2

/-- C111 (messages): no message is taken for another one. The run of every rank falls into the same sequence of segments (the exchange of
    one variable in one `communicate`, the collection of one rank's block sizes, one collective call each); the message a receive obtains
    under non-overtaking matching - the one with the same number among all messages of that sender and tag in the whole run - is sent in
    the same segment, so never in another exchange, for another variable, or in another iteration, although tags are reused. -/
theorem C111_messages (c : Conf) (world : List (List Block)) (hw : WellConnected world) (bad : ℕ → Bool) (nrt : ℕ → ℕ)
    (r src : ℕ) (hr : r < world.length) (hs : src < world.length) (hn : ∀ r < world.length, nrt r = nrt 0) :
    ∃ l : List Seg, (∀ r < world.length, job c world bad nrt r = l.flatMap (fun s => s r)) ∧
      (∀ s ∈ l, (∃ k, ∀ r, s r = [.coll k]) ∨ (∀ r, colls (s r) = [])) ∧
      ∀ K (hK : K < l.length) t a b, l[K] r = a ++ .wait src t :: b →
        let number := (prog (l.take K) r ++ a).count (.wait src t)
        (prog (l.take K) src).count (.send r t) ≤ number ∧ number < (prog (l.take (K + 1)) src).count (.send r t) := by
  refine ⟨jobSegs c world bad (nrt 0), fun r hr => by rw [job, hn r hr]; rfl, ?_, ?_⟩
  · have hany : ∀ s, s ∈ jobSegs c world bad (nrt 0) → (∃ k, s = collSeg k) ∨ ∃ R S, s = exchSeg R S := by
      have hcoll : ∀ (s : Seg) (ks : List Kind), s ∈ ks.map collSeg → (∃ k, s = collSeg k) ∨ ∃ R S, s = exchSeg R S := by
        intro s ks h
        obtain ⟨k, _, rfl⟩ := List.mem_map.1 h
        exact Or.inl ⟨k, rfl⟩
      have hcomm : ∀ (s : Seg) nv, s ∈ commSegs world nv → (∃ k, s = collSeg k) ∨ ∃ R S, s = exchSeg R S := by
        intro s nv hs
        unfold commSegs at hs
        obtain ⟨l, hl, hs⟩ := List.mem_flatten.1 hs
        rw [(List.mem_replicate.1 hl).2] at hs
        simp only [List.mem_cons, List.not_mem_nil, or_false] at hs
        rcases hs with rfl | rfl
        · exact Or.inr ⟨_, _, rfl⟩
        · exact Or.inl ⟨_, rfl⟩
      have hcons : ∀ (s : Seg), s ∈ commSegs world 1 ++ (if c.phi then commSegs world 1 else []) →
          (∃ k, s = collSeg k) ∨ ∃ R S, s = exchSeg R S := by
        intro s hs
        rcases List.mem_append.1 hs with h | h
        · exact hcomm s 1 h
        · split at h
          · exact hcomm s 1 h
          · simp at h
      have hscall : ∀ (s : Seg) k, s ∈ scallSegs c world k → (∃ k, s = collSeg k) ∨ ∃ R S, s = exchSeg R S := by
        intro s k hs
        cases k with
        | rhs =>
          simp only [scallSegs] at hs
          split at hs
          · exact hcomm s 3 hs
          · simp at hs
        | consistify => exact hcons s hs
        | consistifyP => exact hcons s hs
        | resid => exact hcoll s [.allreduce .resMax, .allreduce .resSum] hs
      have hfile : ∀ (s : Seg) f nv, s ∈ fileSegs c f nv → (∃ k, s = collSeg k) ∨ ∃ R S, s = exchSeg R S := by
        intro s f nv hs
        unfold fileSegs at hs
        split at hs
        · exact hcoll s _ hs
        · simp at hs
      have hev : ∀ (s : Seg) m e, s ∈ evSegs c world m e → (∃ k, s = collSeg k) ∨ ∃ R S, s = exchSeg R S := by
        intro s m e hs
        cases e with
        | step =>
          simp only [evSegs, List.mem_cons, List.mem_flatMap] at hs
          rcases hs with rfl | ⟨k, _, h⟩
          · exact Or.inl ⟨_, rfl⟩
          · exact hscall s k h
        | restart m => exact hfile s _ _ hs
        | qnm1 m => simp [evSegs] at hs
        | archive m =>
          simp only [evSegs, List.mem_append, List.mem_flatMap] at hs
          rcases hs with h | ⟨e, _, h⟩
          · exact hfile s _ _ h
          · exact hfile s _ _ h
        | nanCheck m => exact hcoll s [.allreduce .nan] hs
        | emergency =>
          simp only [evSegs, List.mem_append, List.mem_singleton] at hs
          rcases hs with h | rfl
          · exact hfile s _ _ h
          · exact Or.inl ⟨_, rfl⟩
        | coproc m => simp [evSegs] at hs
        | finalize => simp [evSegs] at hs
      have hevs : ∀ es m (s : Seg), s ∈ evsSegs c world m es → (∃ k, s = collSeg k) ∨ ∃ R S, s = exchSeg R S := by
        intro es
        induction es with
        | nil => intro m s hs; simp [evsSegs] at hs
        | cons e es ih =>
          intro m s hs
          rcases List.mem_append.1 hs with h | h
          · exact hev s m e h
          · exact ih _ s h
      intro s hs
      rcases List.mem_append.1 hs with h | h
      · unfold bootSegs at h
        simp only [List.mem_append] at h
        rcases h with (((((((h | h) | h) | h) | h) | h) | h) | h) | h
        · exact hcoll s [.openFile .config, .close .config, .barrier] h
        · exact hcoll s [.openFile .procs] h
        · split at h
          · exact hcoll s [.close .procs] h
          · simp at h
        · exact hcoll s [.barrier, .barrier, .barrier, .barrier, .barrier] h
        · obtain ⟨l, hl, h⟩ := List.mem_flatten.1 h
          rw [(List.mem_replicate.1 hl).2] at h
          exact hcomm s 3 h
        · exact hcoll s [.barrier, .barrier] h
        · obtain ⟨l, hl, h⟩ := List.mem_flatten.1 h
          rw [(List.mem_replicate.1 hl).2] at h
          unfold registerSegs at h
          rcases List.mem_append.1 h with h | h
          · obtain ⟨i, _, rfl⟩ := List.mem_map.1 h
            exact Or.inr ⟨_, _, rfl⟩
          · exact hcoll s [.bcast] h
        · exact hscall s _ h
        · exact hcoll s [.barrier, .allreduce .cells, .gather] h
      · exact hevs _ _ s h
    intro s hs
    rcases hany s hs with ⟨k, rfl⟩ | ⟨R, S, rfl⟩
    · exact Or.inl ⟨k, fun _ => rfl⟩
    · exact Or.inr fun r => exch_colls R S r
  · intro K hK t a b he
    have hg := fun x hx => (fine_job c world hw bad (nrt 0) x hx).good
    generalize jobSegs c world bad (nrt 0) = l at hg hK he
    have hbal : ∀ l : List Seg, (∀ x ∈ l, Good world.length x) → (prog l src).count (.send r t) = (prog l r).count (.wait src t) := by
      intro l hl
      induction l with
      | nil => rfl
      | cons x l ih =>
        have e : ∀ r, prog (x :: l) r = x r ++ prog l r := fun r => by simp [prog]
        rw [e, e, List.count_append, List.count_append, ih (fun y hy => hl y (by simp [hy])), (hl x (by simp)).wait src hs r hr t]
    have h1 := hbal (l.take K) (fun x hx => hg x (List.mem_of_mem_take hx))
    have h2 := (hg l[K] (List.getElem_mem hK)).wait src hs r hr t
    have e : prog (l.take (K + 1)) src = prog (l.take K) src ++ l[K] src := by
      unfold prog
      rw [List.take_add_one, List.getElem?_eq_getElem hK, List.flatMap_append]
      simp only [Option.toList_some, List.flatMap_cons, List.flatMap_nil, List.append_nil]
    have h3 : a.count (.wait src t) < (l[K] r).count (.wait src t) := count_lt he
    simp only [List.count_append, e]
    omega

/-- C111, violated (a rank that stops): if the calls of a rank are cut short - it raises an exception, e.g. a floating point error or a missing
    file - then no other rank ever gets past a barrier or reduction that the stopped rank does not reach: the others wait for ever and the
    job never ends. (The driver's `except` clause only calls sys.exit on the rank that raised. Started through its first line, with
    `python -m mpi4py`, the mpi4py runner, which is not part of this code base, turns this into an abort of the job; started as
    `python runPeregrine.py`, or from a script of one's own, nothing does.) -/
theorem C111_exception_violated (c : Conf) (world : List (List Block)) (hw : WellConnected world) (bad : ℕ → Bool) (nrt : ℕ → ℕ)
    (hn : ∀ r < world.length, nrt r = nrt 0) (a : ℕ) (ha : a < world.length) (cut : List Call) (p : ℕ)
    (hcut : (colls cut).length ≤ p) (k : Kind) (hk : (colls (job c world bad nrt a))[p]? = some k) (ht : k.tight = true)
    (lib : Library) (s : State) (m : ℕ)
    (h : Reach world.length lib (start fun r => if r = a then cut else job c world bad nrt r) s m) (b : ℕ) (hb : b < world.length)
    (hab : b ≠ a) : (colls (s b).done).length ≤ p ∧ (s b).todo ≠ [] := by
  have e : colls (job c world bad nrt b) = colls (job c world bad nrt a) :=
    C111_same_collectives c world hw bad nrt b a ((hn b hb).trans (hn a ha).symm)
  have hcn : (colls cut)[p]? = none := List.getElem?_eq_none hcut
  have hle := (blocked h b a hb ha p (by simp [hab, e, hk, hcn]) (by
      intro x hx; simp only [hab, if_false, e, hk, Option.some.injEq] at hx; exact hx ▸ ht)
    (by intro x hx; simp [hcn] at hx)).1
  refine ⟨hle, fun hnil => ?_⟩
  have hP := (reach_inv h).1 b
  rw [hnil, List.append_nil] at hP
  simp only [hab, if_false] at hP
  rw [hP, e] at hle
  have := (List.getElem?_eq_some_iff.1 hk).1
  omega

/-! ### ranks that start from different iteration numbers -/

theorem colls_file (c : Conf) (hl : c.lump = false) (f : Fil) (nv : ℕ) : fileSegs c f nv = [] := by simp [fileSegs, hl]

/-- the calls up to the end of the first step -/
def firstStep (c : Conf) (world : List (List Block)) : List Seg :=
  bootSegs c world ++ collSeg (.allreduce .cfl) :: (stepCalls false c.integ).flatMap (scallSegs c world)

theorem stepCalls_print (I : Integrator) (hI : I ≠ .dualTime) (pr : Bool) : stepCalls pr I = stepCalls false I := by
  cases I <;> first | rfl | exact absurd rfl hI

theorem evs_cons_empty (c : Conf) (world) (m : ℕ) (e : Ev) (es : List Ev) (he : e ≠ .step) (h0 : evSegs c world m e = []) :
    evsSegs c world m (e :: es) = evsSegs c world m es := by simp [evsSegs, he, h0]

/-- the events between the step and the check do nothing collective without `lump` -/
theorem evs_skip (c : Conf) (world) (hl : c.lump = false) (m : ℕ) (pre es : List Ev)
    (hp : ∀ e ∈ pre, (∃ i, e = .restart i) ∨ (∃ i, e = .qnm1 i) ∨ (∃ i, e = .archive i) ∨ (∃ i, e = .coproc i)) :
    evsSegs c world m (pre ++ es) = evsSegs c world m es := by
  induction pre with
  | nil => rfl
  | cons e pre ih =>
    rw [List.cons_append, evs_cons_empty, ih (fun x hx => hp x (by simp [hx]))]
    · rcases hp e (by simp) with ⟨i, rfl⟩ | ⟨i, rfl⟩ | ⟨i, rfl⟩ | ⟨i, rfl⟩ <;> simp
    · rcases hp e (by simp) with ⟨i, rfl⟩ | ⟨i, rfl⟩ | ⟨i, rfl⟩ | ⟨i, rfl⟩ <;> simp [evSegs, colls_file c hl]

/-- a run of at least one iteration: what follows the first step is either the NaN check, or the next step or the end -/
theorem job_split (c : Conf) (world : List (List Block)) (bad : ℕ → Bool) (nrt : ℕ) (hl : c.lump = false) (hI : c.integ ≠ .dualTime)
    (hi : 0 < c.niter) :
    ∃ rest, jobSegs c world bad nrt = firstStep c world ++ rest ∧
      ((c.loop.checkNan ≠ 0 ∧ (nrt + 1) % c.loop.checkNan = 0 → ∃ r', rest = collSeg (.allreduce .nan) :: r') ∧
       (¬ (c.loop.checkNan ≠ 0 ∧ (nrt + 1) % c.loop.checkNan = 0) → (rest = [] ∧ c.niter = 1) ∨ ∃ r', rest = collSeg (.allreduce .cfl) :: r')) := by
  obtain ⟨n, hn⟩ : ∃ n, c.niter = n + 1 := ⟨c.niter - 1, by omega⟩
  set e1 : List Ev := (if (nrt + 1) % c.loop.niterRestart = 0 then .restart (nrt + 1) :: (if c.loop.dualTime then [.qnm1 (nrt + 1)] else [])
    else []) with he1
  set e2 : List Ev := (if (nrt + 1) % c.loop.niterArchive = 0 then [.archive (nrt + 1)] else []) with he2
  have hpre : ∀ e ∈ e1 ++ e2, (∃ i, e = Ev.restart i) ∨ (∃ i, e = Ev.qnm1 i) ∨ (∃ i, e = Ev.archive i) ∨ (∃ i, e = Ev.coproc i) := by
    intro e he
    rcases List.mem_append.1 he with h | h
    · rw [he1] at h
      split at h
      · rcases List.mem_cons.1 h with h | h
        · exact Or.inl ⟨_, h⟩
        · split at h
          · exact Or.inr (Or.inl ⟨_, by simpa using h⟩)
          · simp at h
      · simp at h
    · rw [he2] at h
      split at h
      · exact Or.inr (Or.inr (Or.inl ⟨_, by simpa using h⟩))
      · simp at h
  have hstep : ∀ es, bootSegs c world ++ evsSegs c world nrt (.step :: es) = firstStep c world ++ evsSegs c world (nrt + 1) es := by
    intro es
    simp [evsSegs, evSegs, firstStep, stepCalls_print c.integ hI]
  unfold jobSegs simulate
  rw [hn]
  simp only [loop]
  by_cases hc : c.loop.checkNan ≠ 0 ∧ (nrt + 1) % c.loop.checkNan = 0
  · by_cases hb : bad (nrt + 1) = true
    · have hB : Run.body c.loop (nrt + 1) (bad (nrt + 1)) = (.step :: e1 ++ e2 ++ [.nanCheck (nrt + 1), .emergency], false) := by
        simp only [Run.body, if_pos hc, if_pos hb, he1, he2]
      simp only [hB, Bool.false_eq_true, if_false, List.append_nil]
      refine ⟨evsSegs c world (nrt + 1) ([.nanCheck (nrt + 1), .emergency] ++ [.finalize]), ?_, fun _ => ?_, fun h => absurd hc h⟩
      · rw [← evs_skip c world hl (nrt + 1) (e1 ++ e2) _ hpre, ← hstep]
        simp
      · exact ⟨_, rfl⟩
    · have hB : Run.body c.loop (nrt + 1) (bad (nrt + 1)) =
          (.step :: e1 ++ e2 ++ [.nanCheck (nrt + 1), .coproc (nrt + 1)], true) := by
        simp only [Run.body, if_pos hc, if_neg hb, he1, he2]
      simp only [hB, if_true]
      refine ⟨evsSegs c world (nrt + 1) (.nanCheck (nrt + 1) :: .coproc (nrt + 1) :: (loop c.loop bad n (nrt + 1) ++ [.finalize])), ?_,
        fun _ => ?_, fun h => absurd hc h⟩
      · rw [← evs_skip c world hl (nrt + 1) (e1 ++ e2) _ hpre, ← hstep]
        simp
      · exact ⟨_, rfl⟩
  · have hB : Run.body c.loop (nrt + 1) (bad (nrt + 1)) = (.step :: e1 ++ e2 ++ [.coproc (nrt + 1)], true) := by
      simp only [Run.body, if_neg hc, he1, he2]
    simp only [hB, if_true]
    refine ⟨evsSegs c world (nrt + 1) (loop c.loop bad n (nrt + 1) ++ [.finalize]), ?_, fun h => absurd h hc, fun _ => ?_⟩
    · rw [← evs_cons_empty c world (nrt + 1) (.coproc (nrt + 1)) _ (by simp) rfl,
        ← evs_skip c world hl (nrt + 1) (e1 ++ e2) _ hpre, ← hstep]
      simp
    · cases n with
      | zero => exact Or.inl ⟨rfl, rfl⟩
      | succ n =>
        refine Or.inr ?_
        have : ∃ es, loop c.loop bad (n + 1) (nrt + 1) = .step :: es := by
          simp only [loop, Run.body]
          split
          · split <;> exact ⟨_, rfl⟩
          · exact ⟨_, rfl⟩
        obtain ⟨es, hes⟩ := this
        rw [hes, List.cons_append]
        exact ⟨_, rfl⟩

/-- C111, violated (ranks that disagree on the iteration number): with one restart file per block, every rank takes the iteration number from the
    file of its own first block. If the files are of different iterations (a run killed while it overwrites its restart, C108) nothing
    reports it, and for every grid, every scheme and every two numbers there is a NaN-check interval with which the run hangs: the ranks
    never agree on the collective call after the first step, and neither of the two ever finishes. -/
theorem C111_mixed_restart_violated (c : Conf) (world : List (List Block)) (hw : WellConnected world) (bad : ℕ → Bool) (nrt : ℕ → ℕ)
    (hl : c.lump = false) (hI : c.integ ≠ .dualTime) (hi : 0 < c.niter) (a b : ℕ) (ha : a < world.length) (hb : b < world.length)
    (hlt : nrt a < nrt b) (hcheck : c.loop.checkNan = nrt b + 1) (lib : Library) (s : State) (m : ℕ)
    (h : Reach world.length lib (start (job c world bad nrt)) s m) : (s b).todo ≠ [] ∧ (1 < c.niter → (s a).todo ≠ []) := by
  obtain ⟨ra, ea, _, ga⟩ := job_split c world bad (nrt a) hl hI hi
  obtain ⟨rb, eb, gb, _⟩ := job_split c world bad (nrt b) hl hI hi
  obtain ⟨rb', hrb⟩ := gb ⟨by omega, by rw [hcheck, Nat.mod_self]⟩
  have hra := ga (by
    rintro ⟨_, h2⟩
    rw [hcheck, Nat.mod_eq_of_lt (by omega)] at h2
    omega)
  have hfine : ∀ x ∈ firstStep c world, Fine world.length x := fun x hx =>
    fine_job c world hw bad (nrt a) x (by rw [ea]; exact List.mem_append_left _ hx)
  have hsame : colls (prog (firstStep c world) a) = colls (prog (firstStep c world) b) := by
    rw [colls_prog, colls_prog]
    generalize firstStep c world = l at hfine
    induction l with
    | nil => rfl
    | cons x l ih => rw [List.flatMap_cons, List.flatMap_cons, (hfine x (by simp)).same a b, ih (fun y hy => hfine y (by simp [hy]))]
  set p := (colls (prog (firstStep c world) a)).length with hp
  have hpb : (colls (job c world bad nrt b))[p]? = some (.allreduce .nan) := by
    unfold job
    rw [eb, hrb]
    have : prog (firstStep c world ++ collSeg (.allreduce .nan) :: rb') b =
      prog (firstStep c world) b ++ .coll (.allreduce .nan) :: prog rb' b := by simp [prog, collSeg]
    rw [this, colls_append, List.getElem?_append_right (by rw [hp, hsame])]
    simp [hp, hsame]
  have hpa : (c.niter = 1 ∧ (colls (job c world bad nrt a))[p]? = none) ∨ (colls (job c world bad nrt a))[p]? = some (.allreduce .cfl) := by
    unfold job
    rw [ea]
    rcases hra with ⟨h0, h1⟩ | ⟨r', h0⟩
    · left
      rw [h0, List.append_nil]
      exact ⟨h1, List.getElem?_eq_none le_rfl⟩
    · right
      have : prog (firstStep c world ++ collSeg (.allreduce .cfl) :: r') a =
        prog (firstStep c world) a ++ .coll (.allreduce .cfl) :: prog r' a := by simp [prog, collSeg]
      rw [h0, this, colls_append, List.getElem?_append_right (by omega)]
      simp [hp]
  have hblk := blocked h a b ha hb p (by rcases hpa with ⟨_, e⟩ | e <;> rw [e, hpb] <;> simp)
    (by intro x hx; rcases hpa with ⟨_, e⟩ | e <;> rw [e] at hx <;> simp at hx; subst hx; rfl)
    (by intro x hx; rw [hpb] at hx; simp at hx; subst hx; rfl)
  have hfin : ∀ r x, (colls (job c world bad nrt r))[p]? = some x → (colls (s r).done).length ≤ p → (s r).todo ≠ [] := by
    intro r x hx hle hnil
    have hP := (reach_inv h).1 r
    rw [hnil, List.append_nil] at hP
    rw [hP] at hle
    have := (List.getElem?_eq_some_iff.1 hx).1
    omega
  refine ⟨hfin b _ hpb hblk.2, fun h1 => ?_⟩
  rcases hpa with ⟨e, _⟩ | e
  · omega
  · exact hfin a _ e hblk.1

/-! Non-vacuity: a two-rank case with connected blocks, diffusion and a blended scheme, one restart and a NaN check; its run has hundreds of
calls, and there are schedules (the one the library chooses) that start. -/

/-- an example configuration -/
def exConf : Conf where
  integ := .rk3
  diffusion := true
  phi := true
  niterPrint := 1
  loop := ⟨2, 2, 2, false⟩
  niter := 2
  lump := true
  totalBlocks := 2
  nvars := 7
  extras := [5]
  procsFile := true

example : WellConnected exWorld ∧ exWorld.length = 2 ∧ (job exConf exWorld (fun _ => false) (fun _ => 0) 0).length > 200 ∧
    (colls (job exConf exWorld (fun _ => false) (fun _ => 0) 0)).length > 100 := ⟨exWell, rfl, by decide +kernel, by decide +kernel⟩

/-- the hypotheses of `C111_exception_violated` are met by a rank that fails on reading the configuration (it never reaches the first
    barrier) -/
example : (colls [Call.coll (.openFile .config)]).length ≤ 2 ∧
    (colls (job exConf exWorld (fun _ => false) (fun _ => 0) 0))[2]? = some .barrier ∧ Kind.barrier.tight = true := by decide +kernel

/-- and those of `C111_mixed_restart_violated` by the restart numbers 0 and 1 with a check at every second iteration -/
example : ({ exConf with lump := false } : Conf).loop.checkNan = (fun r : ℕ => r) 1 + 1 := rfl

end PG.Comm.Job
