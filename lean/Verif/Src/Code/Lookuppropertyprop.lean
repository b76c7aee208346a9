import Verif.Src.Code.Headers
/-
  Generated by tools/c2lean.py from tests/lookupproperty-prop.c.
-/
namespace Iff.Src

/-- lookupproperty-prop.c:28 -/
def lookupproperty_prop_ID_HELO : Expr := (IFF_MAKEID (.num .int 72) (.num .int 69) (.num .int 76) (.num .int 79))

/-- lookupproperty-prop.c:29 -/
def lookupproperty_prop_ID_TEST : Expr := (IFF_MAKEID (.num .int 84) (.num .int 69) (.num .int 83) (.num .int 84))

/-- lookupproperty-prop.c:31-63 -/
def lookupproperty_prop_main.code : Fun where
  params := [(.argc, (.int .int)), (.argv, (.ptr (.ptr (.int .char))))]
  ret := (.int .int)
  body :=
    (.seq (.decl .chunk (.ptr (.struct .IFF_Chunk)) (some (.call (.fn .IFF_read) (.cons (.str "list.TEST") (.cons .null .nil)))))
      (.ite (.bin .eq (.var .chunk) .null)
      (.ret (.num .int 1))
      (.seq (.decl .status (.int .int) (some (.num .int 0)))
        (.seq (.object .formsLength (.int .uint) none)
        (.seq (.decl .forms (.ptr (.ptr (.struct .IFF_Form))) (some (.call (.fn .IFF_searchForms) (.cons (.var .chunk) (.cons lookupproperty_prop_ID_TEST (.cons (.addr (.var .formsLength)) .nil))))))
        (.seq (.ite (.bin .gt (.var .formsLength) (.num .int 0))
          (.seq (.decl .heloChunk (.ptr (.struct .IFF_Chunk)) (some (.call (.fn .IFF_getChunkFromForm) (.cons (.index (.var .forms) (.num .int 0)) (.cons lookupproperty_prop_ID_HELO .nil)))))
            (.ite (.lor (.bin .eq (.var .heloChunk) .null) (.bin .ne (.arrow (.var .heloChunk) .chunkId) lookupproperty_prop_ID_HELO))
            (.seq (.expr (.call (.fn .fprintf) (.cons (.stream .stderr) (.cons (.str "Error: the chunk we should find must be the HELO chunk!\n") .nil))))
              (.expr (.assign (.var .status) (.num .int 1))))
            .skip))
          (.seq (.expr (.call (.fn .fprintf) (.cons (.stream .stderr) (.cons (.str "Error: we should be able to find a TEST form!\n") .nil))))
            (.expr (.assign (.var .status) (.num .int 1)))))
        (.seq (.expr (.call (.fn .IFF_free) (.cons (.var .chunk) (.cons .null .nil))))
        (.ret (.var .status)))))))))

end Iff.Src
