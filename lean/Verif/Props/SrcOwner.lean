import Verif.Props.SrcBuild
/-
  C73, the program text: releasing a chunk that was added twice.
-/
namespace Iff.Src
set_option maxRecDepth 4000

/-- The text of the library makes a FORM and an empty data chunk and adds the chunk to the FORM twice. -/
def textTwice : Out (V × CS) :=
  let X := linked fun _ _ => false
  andCall X .IFF_addToForm [.ptr (.struct .IFF_Form) ⟨.heap 1, 0⟩, .ptr (.struct .IFF_Chunk) ⟨.heap 2, 0⟩]
    (andCall X .IFF_addToForm [.ptr (.struct .IFF_Form) ⟨.heap 1, 0⟩, .ptr (.struct .IFF_Chunk) ⟨.heap 2, 0⟩]
    (andCall X .IFF_createRawChunk [.int .uint 0x41424344, .int .int 0]
    (callFn X 40 .IFF_createEmptyForm [.int .uint 0x54455354] threeBytes)))

/-- C73, the witness in the text: these calls succeed, and the FORM has two members; then the text of `IFF_free`
runs into undefined behaviour. -/
theorem C73_text : cellAt 1 4 textTwice = some (.int .uint 2) ∧
    failedWith (andCall (linked fun _ _ => false) .IFF_free [.ptr (.struct .IFF_Chunk) ⟨.heap 1, 0⟩,
      .ptr (.struct .IFF_ChunkRegistry) Ptr.null] textTwice) = some .useAfterFree := by
  decide +kernel

end Iff.Src
