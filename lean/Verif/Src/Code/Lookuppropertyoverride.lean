import Verif.Src.Code.Headers
/-
  Generated by tools/c2lean.py from tests/lookupproperty-override.c.
-/
namespace Iff.Src

/-- lookupproperty-override.c:29 -/
def lookupproperty_override_HELO_BYTES_SIZE : Expr := (.num .int 4)

/-- lookupproperty-override.c:31 -/
def lookupproperty_override_ID_HELO : Expr := (IFF_MAKEID (.num .int 72) (.num .int 69) (.num .int 76) (.num .int 79))

/-- lookupproperty-override.c:32 -/
def lookupproperty_override_ID_TEST : Expr := (IFF_MAKEID (.num .int 84) (.num .int 69) (.num .int 83) (.num .int 84))

/-- lookupproperty-override.c:34-85 -/
def lookupproperty_override_main.code : Fun where
  params := [(.argc, (.int .int)), (.argv, (.ptr (.ptr (.int .char))))]
  ret := (.int .int)
  body :=
    (.seq (.decl .chunk (.ptr (.struct .IFF_Chunk)) (some (.call (.fn .IFF_read) (.cons (.str "lookupproperty-override.TEST") (.cons .null .nil)))))
      (.ite (.bin .eq (.var .chunk) .null)
      (.ret (.num .int 1))
      (.seq (.decl .status (.int .int) (some (.num .int 0)))
        (.seq (.object .formsLength (.int .uint) none)
        (.seq (.decl .forms (.ptr (.ptr (.struct .IFF_Form))) (some (.call (.fn .IFF_searchForms) (.cons (.var .chunk) (.cons lookupproperty_override_ID_TEST (.cons (.addr (.var .formsLength)) .nil))))))
        (.seq (.ite (.bin .eq (.var .formsLength) (.num .int 2))
          (.seq (.decl .heloChunk (.ptr (.struct .IFF_RawChunk)) (some (.cast (.ptr (.struct .IFF_RawChunk)) (.call (.fn .IFF_getChunkFromForm) (.cons (.index (.var .forms) (.num .int 0)) (.cons lookupproperty_override_ID_HELO .nil))))))
            (.ite (.land (.bin .ne (.var .heloChunk) .null) (.bin .eq (.arrow (.var .heloChunk) .chunkId) lookupproperty_override_ID_HELO))
            (.ite (.bin .eq (.arrow (.var .heloChunk) .chunkSize) lookupproperty_override_HELO_BYTES_SIZE)
              (.ite (.lor (.lor (.lor (.bin .ne (.index (.arrow (.var .heloChunk) .chunkData) (.num .int 0)) (.num .int 49)) (.bin .ne (.index (.arrow (.var .heloChunk) .chunkData) (.num .int 1)) (.num .int 50))) (.bin .ne (.index (.arrow (.var .heloChunk) .chunkData) (.num .int 2)) (.num .int 51))) (.bin .ne (.index (.arrow (.var .heloChunk) .chunkData) (.num .int 3)) (.num .int 52)))
                (.seq (.expr (.call (.fn .fprintf) (.cons (.stream .stderr) (.cons (.str "Error: HELO chunk contents should be: '1', '2', '3', '4'!\n") .nil))))
                  (.expr (.assign (.var .status) (.num .int 1))))
                .skip)
              (.seq (.expr (.call (.fn .fprintf) (.cons (.stream .stderr) (.cons (.str "Error: size of helo chunk should be: %u!\n") (.cons lookupproperty_override_HELO_BYTES_SIZE .nil)))))
                (.expr (.assign (.var .status) (.num .int 1)))))
            (.seq (.expr (.call (.fn .fprintf) (.cons (.stream .stderr) (.cons (.str "Error: we should be able to find a HELO chunk!\n") .nil))))
              (.expr (.assign (.var .status) (.num .int 1))))))
          (.seq (.expr (.call (.fn .fprintf) (.cons (.stream .stderr) (.cons (.str "Error: we should be able to find 2 TEST forms!\n") .nil))))
            (.expr (.assign (.var .status) (.num .int 1)))))
        (.seq (.expr (.call (.fn .IFF_free) (.cons (.var .chunk) (.cons .null .nil))))
        (.ret (.var .status)))))))))

end Iff.Src
