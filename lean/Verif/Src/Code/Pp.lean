import Verif.Src.Code.Headers
/-
  Generated by tools/c2lean.py from src/iffpp/pp.c.
-/
namespace Iff.Src

/-- pp.c:25-55 -/
def IFF_prettyPrint.code : Fun where
  params := [(.filename, (.ptr (.int .char))), (.options, (.int .int))]
  ret := (.int .int)
  body :=
    (.seq (.decl .chunk (.ptr (.struct .IFF_Chunk)) (some (.call (.fn .IFF_read) (.cons (.var .filename) (.cons .null .nil)))))
      (.ite (.bin .eq (.var .chunk) .null)
      (.seq (.expr (.call (.fn .fprintf) (.cons (.stream .stderr) (.cons (.str "Cannot open IFF file!\n") .nil))))
        (.ret (.num .int 1)))
      (.seq (.decl .status (.int .int) none)
        (.seq (.ite (.lor (.bin .band (.var .options) IFFPP_DISABLE_CHECK) (.call (.fn .IFF_check) (.cons (.var .chunk) (.cons .null .nil))))
          (.seq (.expr (.call (.fn .IFF_print) (.cons (.var .chunk) (.cons (.num .int 0) (.cons .null .nil)))))
            (.expr (.assign (.var .status) (.num .int 0))))
          (.expr (.assign (.var .status) (.num .int 1))))
        (.seq (.expr (.call (.fn .IFF_free) (.cons (.var .chunk) (.cons .null .nil))))
        (.ret (.var .status)))))))

end Iff.Src
