import Verif.Src.Code.Headers
/-
  Generated by tools/c2lean.py from src/libiff/error.c.
-/
namespace Iff.Src

/-- error.c:41-50 -/
def IFF_errorId.code : Fun where
  params := [(.id, (.int .uint))]
  ret := .void
  body :=
    (.seq (.decl .i (.int .uint) none)
      (.seq (.object .id2 (.arr 4 (.int .char)) none)
      (.seq (.expr (.call (.fn .IFF_idToString) (.cons (.var .id) (.cons (.var .id2) .nil))))
      (.for (.assign (.var .i) (.num .int 0)) (.bin .lt (.var .i) IFF_ID_SIZE) (.inc (.var .i))
      (.expr (.call (.fn .IFF_error) (.cons (.str "%c") (.cons (.index (.var .id2) (.var .i)) .nil))))))))

/-- error.c:52-57 -/
def IFF_readError.code : Fun where
  params := [(.chunkId, (.int .uint)), (.attributeName, (.ptr (.int .char)))]
  ret := .void
  body :=
    (.seq (.expr (.call (.fn .IFF_error) (.cons (.str "Error reading '") .nil)))
      (.seq (.expr (.call (.fn .IFF_errorId) (.cons (.var .chunkId) .nil)))
      (.expr (.call (.fn .IFF_error) (.cons (.str "'.%s\n") (.cons (.var .attributeName) .nil))))))

/-- error.c:59-64 -/
def IFF_writeError.code : Fun where
  params := [(.chunkId, (.int .uint)), (.attributeName, (.ptr (.int .char)))]
  ret := .void
  body :=
    (.seq (.expr (.call (.fn .IFF_error) (.cons (.str "Error writing '") .nil)))
      (.seq (.expr (.call (.fn .IFF_errorId) (.cons (.var .chunkId) .nil)))
      (.expr (.call (.fn .IFF_error) (.cons (.str "'.%s\n") (.cons (.var .attributeName) .nil))))))

end Iff.Src
