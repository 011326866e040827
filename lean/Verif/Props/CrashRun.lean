import Verif.Props.Crash
import Verif.Props.Run

/-!
# C103 in whole runs
-/

namespace Httpolice.Props

open Httpolice.Model Httpolice.Spec Httpolice.Lemmas

variable {S : Setup}

/-- **C103**: a combined file with markers can be read to the end, unless one of its streams has a line with a chunk
size below -1. -/
theorem C103_workable {file : Str × Option Str} {inbound outbound : Str} {scheme : Option Str}
    (hf : CombinedParts S.decodeUtf8 file inbound outbound scheme) (h1 : ¬BelowMinusOne inbound)
    (h2 : ¬BelowMinusOne outbound) : ∃ ys, Captured S file scheme ys := by
  cases h : (runStreams (S.world.frame S.base.lower S.libs) (some inbound) (some outbound)).2 with
  | ok final => exact ⟨_, inbound, outbound, final, hf, Prod.ext rfl h⟩
  | error e =>
    rcases (C103_only_below _ _ _ _ h).2 with ⟨d, hd, hb⟩ | ⟨d, hd, hb⟩
    · cases hd; exact absurd hb h1
    · cases hd; exact absurd hb h2

/-- **C103**: the command fails with an exception on a combined file whose first request is chunked and has a chunk size
below -1, after it has reported everything in the files before. Transfer-Encoding is given as text here. -/
theorem C103_run (hW : Ready S.world) (hl : LowersAscii S.base.lower) {good after : List (Str × Option Str)}
    {xs : List (Option Str × List Yield)} {file : Str × Option Str} (hg : Worked S good xs) {inbound outbound : Str}
    {scheme : Option Str} (hf : CombinedParts S.decodeUtf8 file inbound outbound scheme)
    {h : WHeading} {method target version : Str} {es : List Entry} {cs : List Coding} {chunks : List WChunk} {line : WLine}
    {n : Nat} {t : Str} (hin : inbound = h.bytes ++ (chunks.flatMap WChunk.bytes ++ line.bytes ++ t))
    (hh : RequestHeading h method target version es) (hcs : CodedWith es cs) (hlast : cs.getLast? = some .chunked)
    (hc : ∀ c ∈ chunks, c.Ok) (hd : (chunks.flatMap (·.data)).length ≤ 2 ^ 30) (hline : line.Ok)
    (hm : SaysMinus line.text n) (hn : 2 ≤ n) :
    S.exitCode (good ++ file :: after) = none ∧
      ∃ bs, S.runCombined (good ++ file :: after) = (bs, .otherError) ∧ Pairwise2 (ShownAs S) (inTurn xs) bs := by
  have hte : (codings (S.world.frame S.base.lower S.libs) es).getLast? = some .chunked := by
    rw [(C93_codings hW hl es cs).2 hcs]; exact hlast
  have hrun : parseStreams (S.world.frame S.base.lower S.libs) (some (SS.new inbound)) (some (SS.new outbound))
      = ([], .error .value) := by
    rw [hin]
    exact C103_request_fails _ h method target version es chunks line n t (some outbound) hh hte hc hd hline hm hn
  refine ⟨((C98_exit hW hl _).2.2).2 ⟨good, xs, file, after, rfl, hg, inbound, outbound, scheme, hf, .inr ⟨.value, ?_⟩⟩, ?_⟩
  · rw [hrun]
  · obtain ⟨bs, h1, h2⟩ := C98_exception hW hl (after := after) hg hf hrun nofun
    exact ⟨bs, h1, by simpa using h2⟩

/-- A file with such a request. -/
def exCrash : Str × Option Str := (str "2", some (str ("======== BEGIN INBOUND STREAM ========\r\nPOST / HTTP/1.1\r\n" ++
  "Transfer-Encoding: chunked\r\n\r\n2\r\nab\r\n -0x1_0\t;x=y\r\nGET\r\n======== BEGIN OUTBOUND STREAM ========\r\nhi")))

theorem exCrash_parts (W : World) : CombinedParts (exSetup W [] none).decodeUtf8 exCrash (str ("POST / HTTP/1.1\r\nTransfer-Encoding: chunked\r\n\r\n2\r\nab\r\n" ++
    " -0x1_0\t;x=y\r\nGET\r\n")) (str "hi") (some (str "http")) := by
  refine parts_iff.2 ⟨_, [], rfl, ?_⟩
  show parseCombined some _ _ = _
  decide +kernel

theorem chunked_listed : CodingList (str "chunked") ⟨[], ⟨str "chunked", []⟩, []⟩ :=
  ⟨⟨by simp, ⟨by unfold IsToken IsTchar; decide +kernel, by simp [SemiSyn.Ok], fun _ => rfl⟩, by simp⟩, by decide +kernel⟩

/-- A run on it, after a file that is reported. -/
example {W : World} (hW : Ready W) : (exSetup W [] none).exitCode [exFile, exCrash] = none := by
  obtain ⟨req, r, h⟩ := exFile_worked W [] none
  have hte : (W.frame Toy.env.lower tools).te (str "chunked") = some [.chunked] :=
    ((frame_te hW (lower := Toy.env.lower) (L := tools) (str "chunked")).1 _ chunked_listed).trans (by decide +kernel)
  have hcs : codings (W.frame Toy.env.lower tools) [⟨str "Transfer-Encoding", str "chunked"⟩] = [.chunked] := by
    unfold codings
    rw [show withName "Transfer-Encoding" [⟨str "Transfer-Encoding", str "chunked"⟩]
      = [⟨str "Transfer-Encoding", str "chunked"⟩] by decide +kernel]
    simp only [List.flatMap_cons, List.flatMap_nil, hte]
    rfl
  exact (C103_run (S := exSetup W [] none) hW toy_lower (after := []) h (exCrash_parts W) exInbound exHeading_ok
    ((C93_codings hW toy_lower _ _).1 hcs) rfl exChunks_ok (by decide) exLine_ok minus_example (by decide)).1

end Httpolice.Props
