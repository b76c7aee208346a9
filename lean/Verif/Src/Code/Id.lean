import Verif.Src.Code.Headers
/-
  Generated by tools/c2lean.py from src/libiff/id.c.
-/
namespace Iff.Src

/-- id.c:27-30 -/
def IFF_readId.code : Fun where
  params := [(.file, (.ptr .file)), (.id, (.ptr (.int .uint))), (.chunkId, (.int .uint)), (.attributeName, (.ptr (.int .char)))]
  ret := (.int .int)
  body :=
    (.ret (.call (.fn .IFF_readULong) (.cons (.var .file) (.cons (.var .id) (.cons (.var .chunkId) (.cons (.var .attributeName) .nil))))))

/-- id.c:32-35 -/
def IFF_writeId.code : Fun where
  params := [(.file, (.ptr .file)), (.id, (.int .uint)), (.chunkId, (.int .uint)), (.attributeName, (.ptr (.int .char)))]
  ret := (.int .int)
  body :=
    (.ret (.call (.fn .IFF_writeULong) (.cons (.var .file) (.cons (.var .id) (.cons (.var .chunkId) (.cons (.var .attributeName) .nil))))))

/-- id.c:37-43 -/
def IFF_idToString.code : Fun where
  params := [(.id, (.int .uint)), (.id2, (.ptr (.int .char)))]
  ret := .void
  body :=
    (.seq (.expr (.assign (.index (.var .id2) (.num .int 0)) (.bin .shr (.var .id) (.num .int 24))))
      (.seq (.expr (.assign (.index (.var .id2) (.num .int 1)) (.bin .shr (.bin .band (.var .id) (.num .int 16711680)) (.num .int 16))))
      (.seq (.expr (.assign (.index (.var .id2) (.num .int 2)) (.bin .shr (.bin .band (.var .id) (.num .int 65280)) (.num .int 8))))
      (.expr (.assign (.index (.var .id2) (.num .int 3)) (.bin .band (.var .id) (.num .int 255)))))))

/-- id.c:45-72 -/
def IFF_checkId.code : Fun where
  params := [(.id, (.int .uint))]
  ret := (.int .int)
  body :=
    (.seq (.object .id2 (.arr 4 (.int .char)) none)
      (.seq (.decl .i (.int .uint) none)
      (.seq (.expr (.call (.fn .IFF_idToString) (.cons (.var .id) (.cons (.var .id2) .nil))))
      (.seq (.for (.assign (.var .i) (.num .int 0)) (.bin .lt (.var .i) IFF_ID_SIZE) (.inc (.var .i))
        (.ite (.lor (.bin .lt (.index (.var .id2) (.var .i)) (.num .int 32)) (.bin .gt (.index (.var .id2) (.var .i)) (.num .int 126)))
          (.seq (.expr (.call (.fn .IFF_error) (.cons (.str "Illegal character: '%c' in ID!\n") (.cons (.index (.var .id2) (.var .i)) .nil))))
            (.ret FALSE))
          .skip))
      (.seq (.ite (.bin .eq (.index (.var .id2) (.num .int 0)) (.num .int 32))
        (.seq (.expr (.call (.fn .IFF_error) (.cons (.str "Spaces may not precede an ID!\n") .nil)))
          (.ret FALSE))
        .skip)
      (.ret TRUE))))))

/-- id.c:74-83 -/
def IFF_printId.code : Fun where
  params := [(.id, (.int .uint))]
  ret := .void
  body :=
    (.seq (.object .id2 (.arr 4 (.int .char)) none)
      (.seq (.decl .i (.int .uint) none)
      (.seq (.expr (.call (.fn .IFF_idToString) (.cons (.var .id) (.cons (.var .id2) .nil))))
      (.for (.assign (.var .i) (.num .int 0)) (.bin .lt (.var .i) IFF_ID_SIZE) (.inc (.var .i))
      (.expr (.call (.fn .printf) (.cons (.str "%c") (.cons (.index (.var .id2) (.var .i)) .nil))))))))

end Iff.Src
