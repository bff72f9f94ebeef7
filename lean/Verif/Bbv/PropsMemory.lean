import Verif.Bbv.SpecMemory
/-!
C123: qtrace-bbv when memory is lacking.
-/
namespace Bbv

/-- Ended by `exit(1)`, or as with memory. -/
def Exits {α : Type} (r f : Except Stop α) : Prop := r = .error .exit ∨ r = f

theorem exits_resize (h : Heap) (g : BitVec 64 → Bool) (m : Matrix) (rows cols : BitVec 64) :
    Exits (m.resize { h with grants := g } rows cols) (m.resize { h with grants := fun _ => true } rows cols) := by
  unfold Matrix.resize Matrix.resizeRows
  by_cases hc : cols = m.cols
  · simp only [if_pos hc]
    by_cases hg : g (size rows m.cols) = false
    · left; rw [if_pos hg]
    · right; rw [if_neg hg]; rfl
  · simp only [if_neg hc]
    by_cases hg : g (size rows cols) = false
    · left; rw [if_pos hg]; try rfl
    · right; rw [if_neg hg]; rfl

theorem exits_create (h : Heap) (g : BitVec 64 → Bool) (d : Bool) (rows cols : BitVec 64) :
    Exits (Matrix.create { h with grants := g } d rows cols) (Matrix.create { h with grants := fun _ => true } true rows cols) := by
  unfold Matrix.create
  cases d
  · left; rfl
  · simp only
    by_cases hg : g (size rows cols) = false
    · left; rw [if_pos hg]; try rfl
    · right; rw [if_neg hg]; rfl

theorem exits_growCols (h : Heap) (g : BitVec 64 → Bool) (n : BitVec 32) (m : Matrix) :
    Exits (growCols { h with grants := g } n m) (growCols { h with grants := fun _ => true } n m) := by
  unfold growCols
  split
  · exact exits_resize h g m _ _
  · right; rfl

theorem exits_growRows (h : Heap) (g : BitVec 64 → Bool) (n : BitVec 64) (m : Matrix) :
    Exits (growRows { h with grants := g } n m) (growRows { h with grants := fun _ => true } n m) := by
  unfold growRows
  split
  · exact exits_resize h g m _ _
  · right; rfl

theorem exits_reset (e : Env) (l : Luck) (s : St) : Exits (resetM e l s) (resetM e Luck.all s) := by
  unfold resetM
  rcases exits_growCols e.heap l.cols s.nextId s.matrix with h | h
  · left; rw [h]
  · rw [h]
    change Exits _ (match growCols { e.heap with grants := fun _ => true } s.nextId s.matrix with
      | .error x => .error x
      | .ok m => _)
    cases growCols { e.heap with grants := fun _ => true } s.nextId s.matrix with
    | error x => right; rfl
    | ok m =>
      dsimp only
      rcases exits_growRows e.heap l.rows s.interval m with h | h
      · left; rw [h]
      · right; rw [h]; rfl

theorem exits_tick (e : Env) (l : Luck) (s : St) : Exits (tickM e l s) (tickM e Luck.all s) := by
  unfold tickM
  dsimp only
  split
  · rcases exits_reset e l { s with insns := s.insns + 1 } with h | h
    · left; rw [h]
    · right; rw [h]
  · right; rfl

theorem exits_add (l : Luck) (hl : l.insert = true) (a : BitVec 64) (v : BitVec 32) (s : St) : Exits (addBlockM l a v s) (addBlockM Luck.all a v s) := by
  unfold addBlockM
  rw [hl]
  split
  · right; rfl
  · cases l.object
    · left; rfl
    · right; rfl

theorem exits_block (l : Luck) (hl : l.insert = true) (s : St) (r : Rec) : Exits (blockM l s r) (blockM Luck.all s r) := by
  unfold blockM
  dsimp only
  split
  · generalize (if s.ea = 0xffffffffffffffff then { s with ea := r.addr } else s) = s'
    rcases exits_add l hl s'.ea (s'.size + 1) { s' with size := s'.size + 1 } with h | h
    · left; rw [h]
    · right; rw [h]
  · right; rfl

theorem exits_record (e : Env) (l : Luck) (hl : l.insert = true) (s : St) (r : Rec) : Exits (recordM e l s r) (recordM e Luck.all s r) := by
  unfold recordM
  rcases exits_block l hl s r with h | h
  · left; rw [h]
  · rw [h]
    cases blockM Luck.all s r with
    | error x => right; rfl
    | ok s => exact exits_tick e l s

/-- As with memory, or ended with status 1 after the beginning of the text. -/
def Stops {α : Type} (x : α) (r f : List Char × α) : Prop := r = f ∨ r.2 = x ∧ r.1 <+: f.1

theorem records_stops (v : Bool) (e : Env) : ∀ (recs : List (Rec × Luck)) (s : St), (∀ x ∈ recs, x.2.insert = true) →
    Stops (.error .exit) (recordsM v e s recs) (recordsM v e s (recs.map fun x => (x.1, Luck.all)))
  | [], _, _ => Or.inl rfl
  | (r, l) :: rest, s, h => by
    rw [List.map_cons]
    unfold recordsM
    dsimp only
    rcases exits_record e l (h (r, l) List.mem_cons_self) s r with hr | hr
    · right
      rw [hr]
      refine ⟨rfl, ?_⟩
      dsimp only
      cases recordM e Luck.all s r with
      | error x => exact List.prefix_refl _
      | ok s' => exact List.prefix_append _ _
    · rw [hr]
      cases recordM e Luck.all s r with
      | error x => left; rfl
      | ok s' =>
        dsimp only
        rcases records_stops v e rest s' (fun x hx => h x (List.mem_cons_of_mem _ hx)) with h1 | ⟨h1, h2⟩
        · left; rw [h1]
        · right; exact ⟨h1, (List.prefix_append_right_inj _).2 h2⟩

theorem start_exits (e : Env) (l : Lucks) (rows cols : BitVec 64) : Exits (startM e l rows cols) (startM e Lucks.all rows cols) := by
  unfold startM
  rcases exits_create e.heap l.startData l.startDesc rows cols with h | h
  · left; rw [h]
  · rw [h]
    rw [show Lucks.all.startData = fun _ => true from rfl, show Lucks.all.startDesc = true from rfl]
    cases Matrix.create { e.heap with grants := fun _ => true } true rows cols with
    | error x => right; rfl
    | ok m =>
      dsimp only
      cases l.startTable
      · left; rfl
      · right; rfl

theorem parse_stops (v : Bool) (e : Env) (l : Lucks) (recs : List (Rec × Luck)) (h : ∀ x ∈ recs, x.2.insert = true) :
    Stops (.error .exit) (parseM v e l recs) (parseM v e Lucks.all (recs.map fun x => (x.1, Luck.all))) := by
  unfold parseM
  rcases start_exits e l 1000 10000 with hs | hs
  · right; rw [hs]; exact ⟨rfl, List.nil_prefix⟩
  · rw [hs]
    cases startM e Lucks.all 1000 10000 with
    | error x => left; rfl
    | ok s => exact records_stops v e recs s h

theorem pam_stops (v : Bool) (l : PamLuck) (hl : l.table = true) (period : BitVec 64) (points : List Row) (k : Nat) :
    Stops (.error .exit) (onePamM v l period points k) (onePamM v PamLuck.all period points k) := by
  by_cases h : l.pam = false ∨ l.points = false ∨ l.medoids = false
  · right
    have : onePamM v l period points k = (head k, .error .exit) := by unfold onePamM; rw [if_pos h]
    rw [this]
    refine ⟨rfl, ?_⟩
    unfold onePamM
    rw [if_neg (by decide)]
    split
    · exact List.prefix_refl _
    · exact List.prefix_refl _
    · split
      · exact List.prefix_append _ _
      · exact List.prefix_append _ _
      · rw [if_neg (by decide)]
        split <;> exact List.prefix_append _ _
  · left
    unfold onePamM
    rw [if_neg h, if_neg (by decide), hl]
    rfl

theorem sweep_stops (v : Bool) (l : Nat → PamLuck) (hl : ∀ k, (l k).table = true) (period : BitVec 64) (points : List Row) : ∀ (n k : Nat),
    Stops .exit (sweepM v l period points n k) (sweepM v (fun _ => PamLuck.all) period points n k)
  | 0, _ => Or.inl rfl
  | n + 1, k => by
    unfold sweepM
    rcases pam_stops v (l k) (hl k) period points k with h | ⟨h1, h2⟩
    · rw [h]
      cases onePamM v PamLuck.all period points k with
      | mk t r =>
        cases r with
        | error x => left; rfl
        | ok c =>
          dsimp only
          split
          · left; rfl
          · rcases sweep_stops v l hl period points n (k + 1) with h1 | ⟨h1, h2⟩
            · left; rw [h1]
            · right; exact ⟨h1, (List.prefix_append_right_inj _).2 h2⟩
    · right
      cases hx : onePamM v (l k) period points k with
      | mk t r =>
        rw [hx] at h1 h2
        dsimp only at h1 h2
        subst h1
        refine ⟨rfl, ?_⟩
        dsimp only
        cases hy : onePamM v PamLuck.all period points k with
        | mk t' r' =>
          rw [hy] at h2
          cases r' with
          | error x => exact h2
          | ok c =>
            dsimp only
            split
            · exact h2
            · exact h2.trans (List.prefix_append _ _)

theorem clusterings_stops (v : Bool) (l : Nat → PamLuck) (hl : ∀ k, (l k).table = true) (period : BitVec 64) (points : List Row) (k : BitVec 32) :
    Stops .exit (clusteringsM v l period points k) (clusteringsM v (fun _ => PamLuck.all) period points k) := by
  unfold clusteringsM
  split
  · rcases pam_stops v (l k.toNat) (hl _) period points k.toNat with h | ⟨h1, h2⟩
    · left; rw [h]
    · right
      cases hx : onePamM v (l k.toNat) period points k.toNat with
      | mk t r =>
        rw [hx] at h1 h2
        dsimp only at h1 h2
        subst h1
        refine ⟨rfl, ?_⟩
        dsimp only
        cases hy : onePamM v PamLuck.all period points k.toNat with
        | mk t' r' =>
          rw [hy] at h2
          cases r' <;> exact h2
  · exact sweep_stops v l hl period points 32 1

theorem reduced_exits (h : Heap) (l : Lucks) (coin : Nat → Bool) (m : Matrix) (dims : BitVec 32) : Exits (reducedM h l coin m dims) (reducedM h Lucks.all coin m dims) := by
  unfold reducedM
  split
  · unfold projectionM
    rcases exits_create h l.leftData l.leftDesc m.cols (dims.setWidth 64) with e | e
    · left; rw [e]
    · rw [e]
      rw [show Lucks.all.leftData = fun _ => true from rfl, show Lucks.all.leftDesc = true from rfl]
      cases Matrix.create { h with grants := fun _ => true } true m.cols (dims.setWidth 64) with
      | error x => right; rfl
      | ok b =>
        dsimp only
        rcases exits_create h l.rightData l.rightDesc m.rows (dims.setWidth 64) with e | e
        · left; rw [e]
        · right; rw [e]; rfl
  · right; rfl

theorem doPam_stops (v : Bool) (e : Env) (l : Lucks) (hl : ∀ k, (l.pam k).table = true) (s : St) (coin : Nat → Bool) (dims k : BitVec 32) :
    Stops .exit (doPamM v e l s coin dims k) (doPamM v e Lucks.all s coin dims k) := by
  unfold doPamM
  rcases exits_resize e.heap l.last s.matrix s.interval ((s.nextId + 1).setWidth 64) with h | h
  · right; rw [h]; exact ⟨rfl, List.nil_prefix⟩
  · rw [h]
    change Stops _ _ (match s.matrix.resize { e.heap with grants := fun _ => true } s.interval ((s.nextId + 1).setWidth 64) with
      | .error x => ([], x.ending)
      | .ok m => _)
    cases s.matrix.resize { e.heap with grants := fun _ => true } s.interval ((s.nextId + 1).setWidth 64) with
    | error x => left; rfl
    | ok m =>
      dsimp only
      rcases reduced_exits e.heap l coin m dims with h | h
      · right; rw [h]; exact ⟨rfl, List.nil_prefix⟩
      · rw [h]
        cases reducedM e.heap Lucks.all coin m dims with
        | error x => left; rfl
        | ok b =>
          dsimp only
          have hc := clusterings_stops v l.pam hl e.period (rowsOf b) k
          split
          · cases b.print with
            | error x => left; rfl
            | ok t =>
              dsimp only
              rcases hc with hc | ⟨h1, h2⟩
              · left; rw [hc]; rfl
              · right
                refine ⟨h1, ?_⟩
                exact (List.prefix_append_right_inj _).2 ((List.prefix_cons_inj _).2 ((List.prefix_append_right_inj _).2 h2))
          · exact hc

/-- **C123**: whichever requests for memory fail, the program either prints the same as if none failed, and ends in the same way, or ends with status 1 after the beginning of that
text.  This is so with and without `-v`, for all traces, if no addition to the hash table and no request for the table of weights fails. -/
theorem C123_prefix_partial (v : Bool) (e : Env) (l : Lucks) (recs : List (Rec × Luck)) (coin : Nat → Bool) (dims k : BitVec 32) (hi : ∀ x ∈ recs, x.2.insert = true)
    (ht : ∀ k, (l.pam k).table = true) :
    summariseM v e l recs coin dims k = unlimited v e (recs.map (·.1)) coin dims k ∨
    (summariseM v e l recs coin dims k).2 = .exit ∧ (summariseM v e l recs coin dims k).1 <+: (unlimited v e (recs.map (·.1)) coin dims k).1 := by
  unfold unlimited
  rw [List.map_map]
  change Stops _ _ (summariseM v e Lucks.all (recs.map fun x => (x.1, Luck.all)) coin dims k)
  unfold summariseM
  rcases parse_stops v e l recs hi with h | ⟨h1, h2⟩
  · rw [h]
    cases parseM v e Lucks.all (recs.map fun x => (x.1, Luck.all)) with
    | mk t r =>
      cases r with
      | error x => left; rfl
      | ok s =>
        dsimp only
        rcases doPam_stops v e l ht s coin dims k with h1 | ⟨h1, h2⟩
        · left; rw [h1]
        · right; exact ⟨h1, (List.prefix_append_right_inj _).2 h2⟩
  · right
    cases hx : parseM v e l recs with
    | mk t r =>
      rw [hx] at h1 h2
      dsimp only at h1 h2
      subst h1
      refine ⟨rfl, ?_⟩
      dsimp only
      cases hy : parseM v e Lucks.all (recs.map fun x => (x.1, Luck.all)) with
      | mk t' r' =>
        rw [hy] at h2
        cases r' with
        | error x => exact h2
        | ok s => exact h2.trans (List.prefix_append _ _)

end Bbv
