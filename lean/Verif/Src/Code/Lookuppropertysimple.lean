import Verif.Src.Code.Headers
/-
  Generated by tools/c2lean.py from tests/lookupproperty-simple.c.
-/
namespace Iff.Src

/-- lookupproperty-simple.c:28 -/
def lookupproperty_simple_ID_HELO : Expr := (IFF_MAKEID (.num .int 72) (.num .int 69) (.num .int 76) (.num .int 79))

/-- lookupproperty-simple.c:30-61 -/
def lookupproperty_simple_main.code : Fun where
  params := [(.argc, (.int .int)), (.argv, (.ptr (.ptr (.int .char))))]
  ret := (.int .int)
  body :=
    (.seq (.decl .chunk (.ptr (.struct .IFF_Chunk)) (some (.call (.fn .IFF_read) (.cons (.str "hello.TEST") (.cons .null .nil)))))
      (.ite (.bin .eq (.var .chunk) .null)
      (.ret (.num .int 1))
      (.seq (.decl .status (.int .int) (some (.num .int 0)))
        (.seq (.ite (.bin .eq (.arrow (.var .chunk) .chunkId) IFF_ID_FORM)
          (.seq (.decl .form (.ptr (.struct .IFF_Form)) (some (.cast (.ptr (.struct .IFF_Form)) (.var .chunk))))
            (.seq (.decl .lookupChunk (.ptr (.struct .IFF_Chunk)) (some (.call (.fn .IFF_getChunkFromForm) (.cons (.var .form) (.cons lookupproperty_simple_ID_HELO .nil)))))
            (.ite (.lor (.bin .eq (.var .lookupChunk) .null) (.bin .ne (.arrow (.var .lookupChunk) .chunkId) lookupproperty_simple_ID_HELO))
            (.seq (.expr (.call (.fn .fprintf) (.cons (.stream .stderr) (.cons (.str "HELO chunk can't be obtained from the form!\n") .nil))))
              (.expr (.assign (.var .status) (.num .int 1))))
            .skip)))
          (.seq (.expr (.call (.fn .fprintf) (.cons (.stream .stderr) (.cons (.str "Error: the IFF file must be form!\n") .nil))))
            (.expr (.assign (.var .status) (.num .int 1)))))
        (.seq (.expr (.call (.fn .IFF_free) (.cons (.var .chunk) (.cons .null .nil))))
        (.ret (.var .status)))))))

end Iff.Src
