import Verif.AbsoluteUrl.Lemmas
import Verif.AbsoluteUrl.Model
import Verif.AbsoluteUrl.Props
import Verif.AbsoluteUrl.Spec
import Verif.AiAnswer.Lemmas
import Verif.AiAnswer.Model
import Verif.AiAnswer.Props
import Verif.AiAnswer.Spec
import Verif.AiRequest.Lemmas
import Verif.AiRequest.Model
import Verif.AiRequest.Props
import Verif.AiRequest.Spec
import Verif.AiStream.Lemmas
import Verif.AiStream.Model
import Verif.AiStream.Props
import Verif.AiStream.Spec
import Verif.ApiDocs.Lemmas
import Verif.ApiDocs.Model
import Verif.ApiDocs.Props
import Verif.ApiDocs.Spec
import Verif.AppConfig.Model
import Verif.AppConfig.Props
import Verif.AppConfig.Spec
import Verif.Assembly.Lemmas
import Verif.Assembly.Model
import Verif.Assembly.Props
import Verif.Assembly.Spec
import Verif.Auth.Lemmas
import Verif.Auth.Model
import Verif.Auth.Props
import Verif.Auth.Spec
import Verif.Background.Lemmas
import Verif.Background.Model
import Verif.Background.Props
import Verif.Background.Spec
import Verif.Base64.Lemmas
import Verif.Base64.Model
import Verif.Base64.Spec
import Verif.Basic
import Verif.Bodies.Lemmas
import Verif.Bodies.Model
import Verif.Bodies.Props
import Verif.Bodies.Spec
import Verif.BodyArgs.Lemmas
import Verif.BodyArgs.Model
import Verif.BodyArgs.Props
import Verif.BodyArgs.Spec
import Verif.BodyModels.Lemmas
import Verif.BodyModels.Model
import Verif.BodyModels.Props
import Verif.BodyModels.Spec
import Verif.Bridge.Lemmas
import Verif.Bridge.Model
import Verif.Bridge.Props
import Verif.Bridge.Spec
import Verif.Cache.Model
import Verif.Cache.Props
import Verif.Cache.Spec
import Verif.ClientIp.Lemmas
import Verif.ClientIp.Model
import Verif.ClientIp.Props
import Verif.ClientIp.Spec
import Verif.ClientState.Lemmas
import Verif.ClientState.Model
import Verif.ClientState.Props
import Verif.ClientState.Spec
import Verif.ClientUsers.Lemmas
import Verif.ClientUsers.Model
import Verif.ClientUsers.Props
import Verif.ClientUsers.Spec
import Verif.Conformance
import Verif.ConsoleMail.Lemmas
import Verif.ConsoleMail.Model
import Verif.ConsoleMail.Props
import Verif.ConsoleMail.Spec
import Verif.Context.Lemmas
import Verif.Context.Model
import Verif.Context.Props
import Verif.Context.Spec
import Verif.ControllerOptions.Lemmas
import Verif.ControllerOptions.Model
import Verif.ControllerOptions.Props
import Verif.ControllerOptions.Spec
import Verif.ControllerState.Lemmas
import Verif.ControllerState.Model
import Verif.ControllerState.Props
import Verif.ControllerState.Spec
import Verif.Controllers.Lemmas
import Verif.Controllers.Model
import Verif.Controllers.Props
import Verif.Controllers.Spec
import Verif.CookieLife.Lemmas
import Verif.CookieLife.Model
import Verif.CookieLife.Props
import Verif.CookieLife.Spec
import Verif.Cookies.Lemmas
import Verif.Cookies.Model
import Verif.Cookies.Props
import Verif.Cookies.Spec
import Verif.Cors.FetchLemmas
import Verif.Cors.FetchProps
import Verif.Cors.FetchSpec
import Verif.Cors.Lemmas
import Verif.Cors.Model
import Verif.Cors.Props
import Verif.Cors.Spec
import Verif.CorsCache.Lemmas
import Verif.CorsCache.Model
import Verif.CorsCache.Props
import Verif.CorsCache.Spec
import Verif.CorsPlaces.Lemmas
import Verif.CorsPlaces.Model
import Verif.CorsPlaces.Props
import Verif.CorsPlaces.Spec
import Verif.Cqrs.Lemmas
import Verif.Cqrs.Model
import Verif.Cqrs.Props
import Verif.Cqrs.Spec
import Verif.Credentials.Lemmas
import Verif.Credentials.Model
import Verif.Credentials.Props
import Verif.Credentials.Spec
import Verif.Csrf.Lemmas
import Verif.Csrf.Model
import Verif.Csrf.Props
import Verif.Csrf.Spec
import Verif.CsrfFlow.Lemmas
import Verif.CsrfFlow.Model
import Verif.CsrfFlow.Props
import Verif.CsrfFlow.Spec
import Verif.DebugPage.Lemmas
import Verif.DebugPage.Model
import Verif.DebugPage.Props
import Verif.DebugPage.Select
import Verif.DebugPage.Spec
import Verif.Dependencies.Lemmas
import Verif.Dependencies.Model
import Verif.Dependencies.Props
import Verif.Dependencies.Spec
import Verif.Depends.Lemmas
import Verif.Depends.Model
import Verif.Depends.Props
import Verif.Depends.Spec
import Verif.Directives.Lemmas
import Verif.Directives.Model
import Verif.Directives.Props
import Verif.Directives.Spec
import Verif.Discovery.Lemmas
import Verif.Discovery.Model
import Verif.Discovery.Props
import Verif.Discovery.Spec
import Verif.Disposition.Lemmas
import Verif.Disposition.Model
import Verif.Disposition.Props
import Verif.Disposition.Spec
import Verif.Encoders.Lemmas
import Verif.Encoders.Model
import Verif.Encoders.Props
import Verif.Encoders.Spec
import Verif.Envelope.Lemmas
import Verif.Envelope.Model
import Verif.Envelope.Props
import Verif.Envelope.Spec
import Verif.Environ.Lemmas
import Verif.Environ.Model
import Verif.Environ.Props
import Verif.Environ.Spec
import Verif.Errors.Lemmas
import Verif.Errors.Model
import Verif.Errors.Props
import Verif.Errors.Spec
import Verif.EventGzip.Lemmas
import Verif.EventGzip.Model
import Verif.EventGzip.Props
import Verif.EventGzip.Spec
import Verif.Exceptions.Lemmas
import Verif.Exceptions.Model
import Verif.Exceptions.Props
import Verif.Exceptions.Spec
import Verif.ExitStack.Lemmas
import Verif.ExitStack.Model
import Verif.ExitStack.Props
import Verif.ExitStack.Spec
import Verif.ExtValue.Lemmas
import Verif.ExtValue.Model
import Verif.ExtValue.Props
import Verif.ExtValue.Spec
import Verif.FileFlow.Lemmas
import Verif.FileFlow.Model
import Verif.FileFlow.Props
import Verif.FileFlow.Spec
import Verif.FileGzip.Lemmas
import Verif.FileGzip.Model
import Verif.FileGzip.Props
import Verif.FileGzip.Spec
import Verif.FileResponse.Lemmas
import Verif.FileResponse.Model
import Verif.FileResponse.Props
import Verif.FileResponse.Spec
import Verif.FormHooks.Lemmas
import Verif.FormHooks.Model
import Verif.FormHooks.Props
import Verif.FormHooks.Spec
import Verif.FormKeys.Lemmas
import Verif.FormKeys.Model
import Verif.FormKeys.Props
import Verif.FormKeys.RoundTrip
import Verif.FormKeys.Spec
import Verif.FormStream.Lemmas
import Verif.FormStream.Model
import Verif.FormStream.Props
import Verif.FormStream.Spec
import Verif.Forms.Lemmas
import Verif.Forms.Model
import Verif.Forms.Props
import Verif.Forms.Spec
import Verif.Framing.Lemmas
import Verif.Framing.Model
import Verif.Framing.Props
import Verif.Framing.Spec
import Verif.Generators.Lemmas
import Verif.Generators.Model
import Verif.Generators.Props
import Verif.Generators.Spec
import Verif.Globals.Lemmas
import Verif.Globals.Model
import Verif.Globals.Props
import Verif.Globals.Refine
import Verif.Globals.Spec
import Verif.GraphJson.Lemmas
import Verif.GraphJson.Model
import Verif.GraphJson.Props
import Verif.GraphJson.Spec
import Verif.Guards.Lemmas
import Verif.Guards.Model
import Verif.Guards.Props
import Verif.Guards.Spec
import Verif.Gzip.Lemmas
import Verif.Gzip.Model
import Verif.Gzip.Props
import Verif.Gzip.Spec
import Verif.HandlerPlan.Lemmas
import Verif.HandlerPlan.Model
import Verif.HandlerPlan.Props
import Verif.HandlerPlan.Spec
import Verif.HostRouting.Lemmas
import Verif.HostRouting.Model
import Verif.HostRouting.Props
import Verif.HostRouting.Spec
import Verif.Hosts.Lemmas
import Verif.Hosts.Model
import Verif.Hosts.Props
import Verif.Hosts.Spec
import Verif.Include.Lemmas
import Verif.Include.Model
import Verif.Include.Props
import Verif.Intercept.Lemmas
import Verif.Intercept.Model
import Verif.Intercept.Props
import Verif.Intercept.Spec
import Verif.Introspection.Lemmas
import Verif.Introspection.Model
import Verif.Introspection.Props
import Verif.Introspection.Spec
import Verif.Json.Lemmas
import Verif.Json.Model
import Verif.Json.Props
import Verif.Json.Spec
import Verif.Jwt.Lemmas
import Verif.Jwt.Model
import Verif.Jwt.Props
import Verif.Jwt.Spec
import Verif.Layers.Lemmas
import Verif.Layers.Model
import Verif.Layers.Props
import Verif.Layers.Spec
import Verif.Lifespan.Lemmas
import Verif.Lifespan.Model
import Verif.Lifespan.Props
import Verif.Lifespan.Spec
import Verif.Lifetimes.Lemmas
import Verif.Lifetimes.Model
import Verif.Lifetimes.Props
import Verif.Lifetimes.Spec
import Verif.LineStreams.Lemmas
import Verif.LineStreams.Model
import Verif.LineStreams.Props
import Verif.LineStreams.Spec
import Verif.Listing.Lemmas
import Verif.Listing.Model
import Verif.Listing.Props
import Verif.Listing.Spec
import Verif.Login.Lemmas
import Verif.Login.Model
import Verif.Login.Props
import Verif.Login.Spec
import Verif.LoginForms.Lemmas
import Verif.LoginForms.Model
import Verif.LoginForms.Props
import Verif.LoginForms.Spec
import Verif.LoginReturn.Lemmas
import Verif.LoginReturn.Model
import Verif.LoginReturn.Props
import Verif.LoginReturn.Spec
import Verif.Mail.Lemmas
import Verif.Mail.Model
import Verif.Mail.Props
import Verif.Mail.Spec
import Verif.MailFiles.Lemmas
import Verif.MailFiles.Model
import Verif.MailFiles.Props
import Verif.MailFiles.Spec
import Verif.MailText.Lemmas
import Verif.MailText.Model
import Verif.MailText.Props
import Verif.MailText.Spec
import Verif.Markers.Lemmas
import Verif.Markers.Model
import Verif.Markers.Props
import Verif.Markers.Spec
import Verif.Memo.Lemmas
import Verif.Memo.Model
import Verif.Memo.Props
import Verif.Memo.Spec
import Verif.MultiDict.Lemmas
import Verif.MultiDict.Model
import Verif.MultiDict.Props
import Verif.MultiDict.Spec
import Verif.Multipart.FlowLemmas
import Verif.Multipart.FormLemmas
import Verif.Multipart.Lemmas
import Verif.Multipart.Model
import Verif.Multipart.ParserLemmas
import Verif.Multipart.Props
import Verif.Multipart.Spec
import Verif.OauthPage.Lemmas
import Verif.OauthPage.Model
import Verif.OauthPage.Props
import Verif.OauthPage.Spec
import Verif.Observe.Lemmas
import Verif.Observe.Model
import Verif.Observe.Props
import Verif.Observe.Spec
import Verif.OpenApi.Lemmas
import Verif.OpenApi.Model
import Verif.OpenApi.Props
import Verif.OpenApi.Spec
import Verif.Operations.Lemmas
import Verif.Operations.Model
import Verif.Operations.Props
import Verif.Operations.Spec
import Verif.Override.Lemmas
import Verif.Override.Model
import Verif.Override.Props
import Verif.Override.Spec
import Verif.OverrideFlow.Lemmas
import Verif.OverrideFlow.Model
import Verif.OverrideFlow.Props
import Verif.OverrideFlow.Spec
import Verif.Pages.Lemmas
import Verif.Pages.Model
import Verif.Pages.Props
import Verif.Pages.Spec
import Verif.Params.Lemmas
import Verif.Params.Model
import Verif.Params.Props
import Verif.Params.Spec
import Verif.Path.Lemmas
import Verif.Path.MatchLemmas
import Verif.Path.Model
import Verif.Path.Props
import Verif.Path.ReverseLemmas
import Verif.Path.Spec
import Verif.Proxies.Lemmas
import Verif.Proxies.Model
import Verif.Proxies.Props
import Verif.Proxies.Spec
import Verif.Ranges.Lemmas
import Verif.Ranges.Model
import Verif.Ranges.Props
import Verif.Ranges.Spec
import Verif.Redirect.Lemmas
import Verif.Redirect.Model
import Verif.Redirect.Props
import Verif.Redirect.Spec
import Verif.RedisCache.Lemmas
import Verif.RedisCache.Model
import Verif.RedisCache.Props
import Verif.RedisCache.Spec
import Verif.Referrer.Lemmas
import Verif.Referrer.Model
import Verif.Referrer.Props
import Verif.Referrer.Spec
import Verif.ReferrerFlow.Lemmas
import Verif.ReferrerFlow.Model
import Verif.ReferrerFlow.Props
import Verif.ReferrerFlow.Spec
import Verif.ReferrerLevels.Lemmas
import Verif.ReferrerLevels.Model
import Verif.ReferrerLevels.Props
import Verif.ReferrerLevels.Spec
import Verif.Relay.Lemmas
import Verif.Relay.Model
import Verif.Relay.Props
import Verif.Relay.Spec
import Verif.RelayCookies.Lemmas
import Verif.RelayCookies.Model
import Verif.RelayCookies.Props
import Verif.RelayCookies.Spec
import Verif.RelayHeaders.ForwardedLemmas
import Verif.RelayHeaders.ForwardedProps
import Verif.RelayHeaders.ForwardedSpec
import Verif.RelayHeaders.Lemmas
import Verif.RelayHeaders.Model
import Verif.RelayHeaders.Props
import Verif.RelayHeaders.Spec
import Verif.RelayRequest.Lemmas
import Verif.RelayRequest.Model
import Verif.RelayRequest.Props
import Verif.RelayRequest.Spec
import Verif.RelayResponse.Lemmas
import Verif.RelayResponse.Model
import Verif.RelayResponse.Props
import Verif.RelayResponse.Spec
import Verif.RelaySocket.Lemmas
import Verif.RelaySocket.Model
import Verif.RelaySocket.Props
import Verif.RelaySocket.Spec
import Verif.RelayUrl.Lemmas
import Verif.RelayUrl.Model
import Verif.RelayUrl.Props
import Verif.RelayUrl.Spec
import Verif.Request.Lemmas
import Verif.Request.Model
import Verif.Request.Props
import Verif.Request.Spec
import Verif.Resend.Lemmas
import Verif.Resend.Model
import Verif.Resend.Props
import Verif.Resend.Spec
import Verif.Responses.Lemmas
import Verif.Responses.Model
import Verif.Responses.Props
import Verif.Responses.Spec
import Verif.Reverse.Lemmas
import Verif.Reverse.Model
import Verif.Reverse.Props
import Verif.Reverse.Spec
import Verif.Router.Lemmas
import Verif.Router.Model
import Verif.Router.Props
import Verif.Router.Spec
import Verif.Scaffold.Lemmas
import Verif.Scaffold.Model
import Verif.Scaffold.Props
import Verif.Scaffold.Spec
import Verif.Scheduler.Lemmas
import Verif.Scheduler.Model
import Verif.Scheduler.Props
import Verif.Scheduler.Spec
import Verif.Scope.Lemmas
import Verif.Scope.Model
import Verif.Scope.Props
import Verif.Scope.Spec
import Verif.Scopes.Lemmas
import Verif.Scopes.Model
import Verif.Scopes.Props
import Verif.Scopes.Spec
import Verif.SecurityHeaders.Lemmas
import Verif.SecurityHeaders.Model
import Verif.SecurityHeaders.Props
import Verif.SecurityHeaders.Spec
import Verif.Session.Instance
import Verif.Session.Lemmas
import Verif.Session.Model
import Verif.Session.Props
import Verif.Session.Spec
import Verif.SessionFlow.Instance
import Verif.SessionFlow.Lemmas
import Verif.SessionFlow.Model
import Verif.SessionFlow.Props
import Verif.SessionFlow.Spec
import Verif.SessionTheft.Lemmas
import Verif.SessionTheft.Model
import Verif.SessionTheft.Props
import Verif.SessionTheft.Spec
import Verif.SetCookie.Lemmas
import Verif.SetCookie.Model
import Verif.SetCookie.Props
import Verif.SetCookie.Spec
import Verif.Settings.Lemmas
import Verif.Settings.Model
import Verif.Settings.Props
import Verif.Settings.Spec
import Verif.SharedCache.Lemmas
import Verif.SharedCache.Model
import Verif.SharedCache.Props
import Verif.SharedCache.Spec
import Verif.Shortcuts.Lemmas
import Verif.Shortcuts.Model
import Verif.Shortcuts.Props
import Verif.Shortcuts.Spec
import Verif.SignedLinks.Lemmas
import Verif.SignedLinks.Model
import Verif.SignedLinks.Props
import Verif.SignedLinks.Spec
import Verif.SignedUrl.Lemmas
import Verif.SignedUrl.Model
import Verif.SignedUrl.Props
import Verif.SignedUrl.Spec
import Verif.SlashRedirect.Lemmas
import Verif.SlashRedirect.Model
import Verif.SlashRedirect.Props
import Verif.SlashRedirect.Spec
import Verif.Smtp.Lemmas
import Verif.Smtp.Model
import Verif.Smtp.Props
import Verif.Smtp.Spec
import Verif.Sniffer.Lemmas
import Verif.Sniffer.Model
import Verif.Sniffer.Props
import Verif.Sniffer.Spec
import Verif.SocketController.Lemmas
import Verif.SocketController.Model
import Verif.SocketController.Props
import Verif.SocketController.Spec
import Verif.SocketFactory.Lemmas
import Verif.SocketFactory.Model
import Verif.SocketFactory.Props
import Verif.SocketFactory.Spec
import Verif.Sse.Channel
import Verif.Sse.ChannelLemmas
import Verif.Sse.ChannelProps
import Verif.Sse.ChannelSpec
import Verif.Sse.Lemmas
import Verif.Sse.Model
import Verif.Sse.Props
import Verif.Sse.Spec
import Verif.Stack.Lemmas
import Verif.Stack.Model
import Verif.Stack.Props
import Verif.Stack.Spec
import Verif.StateObj.Lemmas
import Verif.StateObj.Model
import Verif.StateObj.Props
import Verif.StateObj.Spec
import Verif.StaticFiles.Lemmas
import Verif.StaticFiles.Model
import Verif.StaticFiles.Props
import Verif.StaticFiles.Spec
import Verif.StaticSite.Lemmas
import Verif.StaticSite.Model
import Verif.StaticSite.Props
import Verif.StaticSite.Spec
import Verif.Streaming.Lemmas
import Verif.Streaming.Model
import Verif.Streaming.Props
import Verif.Streaming.Spec
import Verif.Structuring.Lemmas
import Verif.Structuring.Model
import Verif.Structuring.Props
import Verif.Structuring.Spec
import Verif.SubSession.Lemmas
import Verif.SubSession.Model
import Verif.SubSession.Props
import Verif.SubSession.Spec
import Verif.TemplateViews.Lemmas
import Verif.TemplateViews.Model
import Verif.TemplateViews.Props
import Verif.TemplateViews.Spec
import Verif.TestClient.Lemmas
import Verif.TestClient.Model
import Verif.TestClient.Props
import Verif.TestClient.Spec
import Verif.TestLifespan.Lemmas
import Verif.TestLifespan.Model
import Verif.TestLifespan.Props
import Verif.TestLifespan.Spec
import Verif.TestSocket.Lemmas
import Verif.TestSocket.Model
import Verif.TestSocket.Props
import Verif.TestSocket.Spec
import Verif.Tracing.Lemmas
import Verif.Tracing.Model
import Verif.Tracing.Props
import Verif.Tracing.Spec
import Verif.Transport.Lemmas
import Verif.Transport.Model
import Verif.Transport.Props
import Verif.Transport.Spec
import Verif.TrustedLinks.Lemmas
import Verif.TrustedLinks.Model
import Verif.TrustedLinks.Props
import Verif.TrustedLinks.Spec
import Verif.Uploads.Lemmas
import Verif.Uploads.Model
import Verif.Uploads.Props
import Verif.Uploads.Spec
import Verif.Url.Lemmas
import Verif.Url.Model
import Verif.UrlQuery.Lemmas
import Verif.UrlQuery.Model
import Verif.UrlQuery.Props
import Verif.UrlQuery.Spec
import Verif.WebSocket.Lemmas
import Verif.WebSocket.Model
import Verif.WebSocket.Props
import Verif.WebSocket.Spec
import Verif.Wsgi.Lemmas
import Verif.Wsgi.Model
import Verif.Wsgi.Props
import Verif.Wsgi.Spec
import Verif.Xml.Lemmas
import Verif.Xml.Model
import Verif.Xml.Props
import Verif.Xml.Spec
