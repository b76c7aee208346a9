import Verif.Src.Code.Headers
/-
  Generated by tools/c2lean.py from src/iffpp/main.c.
-/
namespace Iff.Src

/-- iffpp/main.c:33-53 -/
def iffpp_printUsage.code : Fun where
  params := [(.command, (.ptr (.int .char)))]
  ret := .void
  body :=
    (.seq (.expr (.call (.fn .printf) (.cons (.str "Usage: %s [OPTION] [file.IFF]\n\n") (.cons (.var .command) .nil))))
      (.expr (.call (.fn .puts) (.cons (.str "The command `iffpp' displays a textual representation of a given IFF file, which\ncan be used for manual inspection of its contents. If no IFF file is specified,\nit reads an IFF file from the standard input.\n\nOptions:\n  -c, --disable-check    Do not check the IFF file for validity\n  -h, --help             Shows the usage of this command to the user\n  -v, --version          Shows the version of this command to the user") .nil))))

/-- iffpp/main.c:55-61 -/
def iffpp_printVersion.code : Fun where
  params := [(.command, (.ptr (.int .char)))]
  ret := .void
  body :=
    (.expr (.call (.fn .printf) (.cons (.str "%s (libiff) 0.1\n\nCopyright (C) 2012-2015 Sander van der Burg\n") (.cons (.var .command) .nil))))

/-- iffpp/main.c:63-138 -/
def iffpp_main.code : Fun where
  params := [(.argc, (.int .int)), (.argv, (.ptr (.ptr (.int .char))))]
  ret := (.int .int)
  body :=
    (.seq (.decl .options (.int .int) (some (.num .int 0)))
      (.seq (.decl .filename (.ptr (.int .char)) none)
      (.seq (.decl .c (.int .int) none)
      (.seq (.object .option_index (.int .int) (some (.num .int 0)))
      (.seq (.aggregate .long_options (.arr 4 (.struct .option)) [.expr (.str "disable-check"), .expr (.num .int 0), .null, .expr (.num .int 99), .expr (.str "help"), .expr (.num .int 0), .null, .expr (.num .int 104), .expr (.str "version"), .expr (.num .int 0), .null, .expr (.num .int 118), .null, .expr (.num .int 0), .null, .expr (.num .int 0)])
      (.seq (.while (.bin .ne (.assign (.var .c) (.call (.fn .getopt_long) (.cons (.var .argc) (.cons (.var .argv) (.cons (.str "chv") (.cons (.var .long_options) (.cons (.addr (.var .option_index)) .nil))))))) (.neg (.num .int 1)))
        (.switch (.var .c)
          (.case (.num .int 99) (.seq (.expr (.assignOp .bor (.var .options) IFFPP_DISABLE_CHECK))
            .break)
          (.case (.num .int 104) (.seq (.expr (.call (.fn .iffpp_printUsage) (.cons (.index (.var .argv) (.num .int 0)) .nil)))
            (.ret (.num .int 0)))
          (.case (.num .int 63) (.seq (.expr (.call (.fn .iffpp_printUsage) (.cons (.index (.var .argv) (.num .int 0)) .nil)))
            (.ret (.num .int 1)))
          (.case (.num .int 118) (.seq (.expr (.call (.fn .iffpp_printVersion) (.cons (.index (.var .argv) (.num .int 0)) .nil)))
            (.ret (.num .int 0)))
          .nil))))))
      (.seq (.ite (.bin .ge .optind (.var .argc))
        (.expr (.assign (.var .filename) .null))
        (.expr (.assign (.var .filename) (.index (.var .argv) .optind))))
      (.ret (.call (.fn .IFF_prettyPrint) (.cons (.var .filename) (.cons (.var .options) .nil)))))))))))

/-- iffpp/main.c:63-138 -/
def iffpp_mainPosix.code : Fun where
  params := [(.argc, (.int .int)), (.argv, (.ptr (.ptr (.int .char))))]
  ret := (.int .int)
  body :=
    (.seq (.decl .options (.int .int) (some (.num .int 0)))
      (.seq (.decl .filename (.ptr (.int .char)) none)
      (.seq (.decl .c (.int .int) none)
      (.seq (.while (.bin .ne (.assign (.var .c) (.call (.fn .getopt) (.cons (.var .argc) (.cons (.var .argv) (.cons (.str "chv") .nil))))) (.neg (.num .int 1)))
        (.switch (.var .c)
          (.case (.num .int 99) (.seq (.expr (.assignOp .bor (.var .options) IFFPP_DISABLE_CHECK))
            .break)
          (.case (.num .int 104) (.seq (.expr (.call (.fn .iffpp_printUsage) (.cons (.index (.var .argv) (.num .int 0)) .nil)))
            (.ret (.num .int 0)))
          (.case (.num .int 63) (.seq (.expr (.call (.fn .iffpp_printUsage) (.cons (.index (.var .argv) (.num .int 0)) .nil)))
            (.ret (.num .int 1)))
          (.case (.num .int 118) (.seq (.expr (.call (.fn .iffpp_printVersion) (.cons (.index (.var .argv) (.num .int 0)) .nil)))
            (.ret (.num .int 0)))
          .nil))))))
      (.seq (.ite (.bin .ge .optind (.var .argc))
        (.expr (.assign (.var .filename) .null))
        (.expr (.assign (.var .filename) (.index (.var .argv) .optind))))
      (.ret (.call (.fn .IFF_prettyPrint) (.cons (.var .filename) (.cons (.var .options) .nil)))))))))

/-- iffpp/main.c:33-53 -/
def iffpp_printUsageMsvc.code : Fun where
  params := [(.command, (.ptr (.int .char)))]
  ret := .void
  body :=
    (.seq (.expr (.call (.fn .printf) (.cons (.str "Usage: %s [OPTION] [file.IFF]\n\n") (.cons (.var .command) .nil))))
      (.expr (.call (.fn .puts) (.cons (.str "The command `iffpp' displays a textual representation of a given IFF file, which\ncan be used for manual inspection of its contents. If no IFF file is specified,\nit reads an IFF file from the standard input.\n\nOptions:\n  /c    Do not check the IFF file for validity\n  /?    Shows the usage of this command to the user\n  /v    Shows the version of this command to the user") .nil))))

/-- iffpp/main.c:63-138 -/
def iffpp_mainMsvc.code : Fun where
  params := [(.argc, (.int .int)), (.argv, (.ptr (.ptr (.int .char))))]
  ret := (.int .int)
  body :=
    (.seq (.decl .options (.int .int) (some (.num .int 0)))
      (.seq (.decl .filename (.ptr (.int .char)) none)
      (.seq (.decl .optind (.int .uint) (some (.num .int 1)))
      (.seq (.decl .i (.int .uint) none)
      (.seq (.for (.assign (.var .i) (.num .int 1)) (.bin .lt (.var .i) (.var .argc)) (.inc (.var .i))
        (.ite (.bin .eq (.call (.fn .strcmp) (.cons (.index (.var .argv) (.var .i)) (.cons (.str "/c") .nil))) (.num .int 0))
          (.seq (.expr (.assignOp .bor (.var .options) IFFPP_DISABLE_CHECK))
            (.expr (.inc (.var .optind))))
          (.ite (.bin .eq (.call (.fn .strcmp) (.cons (.index (.var .argv) (.var .i)) (.cons (.str "/?") .nil))) (.num .int 0))
            (.seq (.expr (.call (.fn .iffpp_printUsageMsvc) (.cons (.index (.var .argv) (.num .int 0)) .nil)))
              (.ret (.num .int 0)))
            (.ite (.bin .eq (.call (.fn .strcmp) (.cons (.index (.var .argv) (.var .i)) (.cons (.str "/v") .nil))) (.num .int 0))
              (.seq (.expr (.call (.fn .iffpp_printVersion) (.cons (.index (.var .argv) (.num .int 0)) .nil)))
                (.ret (.num .int 0)))
              .skip))))
      (.seq (.ite (.bin .ge (.var .optind) (.var .argc))
        (.expr (.assign (.var .filename) .null))
        (.expr (.assign (.var .filename) (.index (.var .argv) (.var .optind)))))
      (.ret (.call (.fn .IFF_prettyPrint) (.cons (.var .filename) (.cons (.var .options) .nil))))))))))

end Iff.Src
