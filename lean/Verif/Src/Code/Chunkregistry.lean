import Verif.Src.Code.Headers
/-
  Generated by tools/c2lean.py from src/libiff/chunkregistry.c.
-/
namespace Iff.Src

/-- chunkregistry.c:27-38 -/
def compareFormChunkTypes.code : Fun where
  params := [(.a, (.ptr .void)), (.b, (.ptr .void))]
  ret := (.int .int)
  body :=
    (.seq (.decl .l (.ptr (.struct .IFF_FormChunkTypes)) (some (.cast (.ptr (.struct .IFF_FormChunkTypes)) (.var .a))))
      (.seq (.decl .r (.ptr (.struct .IFF_FormChunkTypes)) (some (.cast (.ptr (.struct .IFF_FormChunkTypes)) (.var .b))))
      (.ite (.bin .lt (.arrow (.var .l) .formType) (.arrow (.var .r) .formType))
      (.ret (.neg (.num .int 1)))
      (.ite (.bin .gt (.arrow (.var .l) .formType) (.arrow (.var .r) .formType))
        (.ret (.num .int 1))
        (.ret (.num .int 0))))))

/-- chunkregistry.c:40-51 -/
def getFormChunkTypes.code : Fun where
  params := [(.formType, (.int .uint)), (.chunkRegistry, (.ptr (.struct .IFF_ChunkRegistry)))]
  ret := (.ptr (.struct .IFF_FormChunkTypes))
  body :=
    (.ite (.bin .eq (.var .chunkRegistry) .null)
      (.ret .null)
      (.seq (.object .key (.struct .IFF_FormChunkTypes) none)
        (.seq (.expr (.assign (.dot (.var .key) .formType) (.var .formType)))
        (.ret (.cast (.ptr (.struct .IFF_FormChunkTypes)) (.call (.fn .bsearch) (.cons (.addr (.var .key)) (.cons (.arrow (.var .chunkRegistry) .formChunkTypes) (.cons (.arrow (.var .chunkRegistry) .formChunkTypesLength) (.cons (.sizeof (.struct .IFF_FormChunkTypes)) (.cons (.fn .compareFormChunkTypes) .nil)))))))))))

/-- chunkregistry.c:53-64 -/
def compareChunkTypes.code : Fun where
  params := [(.a, (.ptr .void)), (.b, (.ptr .void))]
  ret := (.int .int)
  body :=
    (.seq (.decl .l (.ptr (.struct .IFF_ChunkType)) (some (.cast (.ptr (.struct .IFF_ChunkType)) (.var .a))))
      (.seq (.decl .r (.ptr (.struct .IFF_ChunkType)) (some (.cast (.ptr (.struct .IFF_ChunkType)) (.var .b))))
      (.ite (.bin .lt (.arrow (.var .l) .chunkId) (.arrow (.var .r) .chunkId))
      (.ret (.neg (.num .int 1)))
      (.ite (.bin .gt (.arrow (.var .l) .chunkId) (.arrow (.var .r) .chunkId))
        (.ret (.num .int 1))
        (.ret (.num .int 0))))))

/-- chunkregistry.c:66-83 -/
def getChunkType.code : Fun where
  params := [(.chunkId, (.int .uint)), (.chunkTypesNode, (.ptr (.struct .IFF_ChunkTypesNode)))]
  ret := (.ptr (.struct .IFF_ChunkType))
  body :=
    (.ite (.bin .eq (.var .chunkTypesNode) .null)
      (.ret .null)
      (.seq (.decl .result (.ptr (.struct .IFF_ChunkType)) none)
        (.seq (.object .key (.struct .IFF_ChunkType) none)
        (.seq (.expr (.assign (.dot (.var .key) .chunkId) (.var .chunkId)))
        (.seq (.expr (.assign (.var .result) (.cast (.ptr (.struct .IFF_ChunkType)) (.call (.fn .bsearch) (.cons (.addr (.var .key)) (.cons (.arrow (.var .chunkTypesNode) .chunkTypes) (.cons (.arrow (.var .chunkTypesNode) .chunkTypesLength) (.cons (.sizeof (.struct .IFF_ChunkType)) (.cons (.fn .compareChunkTypes) .nil)))))))))
        (.ite (.bin .eq (.var .result) .null)
        (.ret (.call (.fn .getChunkType) (.cons (.var .chunkId) (.cons (.arrow (.var .chunkTypesNode) .parent) .nil))))
        (.ret (.var .result))))))))

/-- chunkregistry.c:85-105 -/
def IFF_findChunkType.code : Fun where
  params := [(.chunkRegistry, (.ptr (.struct .IFF_ChunkRegistry))), (.formType, (.int .uint)), (.chunkId, (.int .uint))]
  ret := (.ptr (.struct .IFF_ChunkType))
  body :=
    (.ite (.bin .eq (.var .chunkRegistry) .null)
      (.ret .null)
      (.seq (.decl .formChunkTypes (.ptr (.struct .IFF_FormChunkTypes)) (some (.call (.fn .getFormChunkTypes) (.cons (.var .formType) (.cons (.var .chunkRegistry) .nil)))))
        (.seq (.decl .result (.ptr (.struct .IFF_ChunkType)) none)
        (.seq (.ite (.bin .eq (.var .formChunkTypes) .null)
          (.expr (.assign (.var .result) (.call (.fn .getChunkType) (.cons (.var .chunkId) (.cons (.arrow (.var .chunkRegistry) .globalChunkTypesNode) .nil)))))
          (.expr (.assign (.var .result) (.call (.fn .getChunkType) (.cons (.var .chunkId) (.cons (.arrow (.var .formChunkTypes) .chunkTypesNode) .nil))))))
        (.ite (.bin .eq (.var .result) .null)
        (.ret (.arrow (.var .chunkRegistry) .defaultChunkType))
        (.ret (.var .result)))))))

end Iff.Src
